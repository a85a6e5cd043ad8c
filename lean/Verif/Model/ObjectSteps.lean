import Verif.Model.Object

/-!
# Operations on objects as sequences of single steps

The functions of `Model/Object` (object.cpp, object_mutation.cpp, object_mutation.hpp, mutate_to.hpp; the lines are cited there) once more,
now as programs whose single steps are the accesses to memory that other threads can see: reading and writing an object, the mixin data in a
buffer, the pointer to the object in front of a mixin, a mixin; calls of allocators and of functions of mixins; changes of the
atomic object count of a type. Between any two steps other threads can do steps (`Spec/Threads`).

`C78_steps_are_operations` says that a program executed without interruption is the operation of `Model/Object`.
-/

namespace Dnmx.Steps

/-- A program. A step is done and then the program goes on with the answer. -/
inductive Prog (α : Type)
  | ok (a : α)
  | throw (a : α) (e : XErr)
  | ub
  | getObj (o : Nat) (k : Option Obj → Prog α)
  | setObj (o : Nat) (x : Option Obj) (k : Prog α)
  /-- memory of a new object -/
  | addObj (ob : Obj) (k : Nat → Prog α)
  /-- a call of the outside world: does it fail, what value does it leave, the number of the call -/
  | outside (k : Bool → Nat → Nat → Prog α)
  | alloc (b : Blk) (k : Nat → Prog α)
  | dealloc (a : Nat) (b : Blk) (k : Prog α)
  | getSlot (a i : Nat) (k : Slot → Prog α)
  | setSlot (a i : Nat) (s : Slot) (k : Prog α)
  | setOwner (l : Loc) (o : Nat) (k : Prog α)
  | getLive (l : Loc) (k : Option (Mix × Nat) → Prog α)
  | setLive (l : Loc) (v : Option (Mix × Nat)) (k : Prog α)
  | construct (l : Loc) (m : Mix) (v : Nat) (how : How) (k : Prog α)
  | destroy (l : Loc) (m : Mix) (k : Prog α)
  | count (t : TypeId) (n : Int) (k : Prog α)
  | log (e : Ev) (k : Prog α)

/-- One program after another; `g`: after an exception. -/
def Prog.bind {α β : Type} (f : α → Prog β) (g : α → XErr → Prog β) : Prog α → Prog β
  | .ok a => f a
  | .throw a e => g a e
  | .ub => .ub
  | .getObj o k => .getObj o (fun x => (k x).bind f g)
  | .setObj o x k => .setObj o x (k.bind f g)
  | .addObj ob k => .addObj ob (fun x => (k x).bind f g)
  | .outside k => .outside (fun x y z => (k x y z).bind f g)
  | .alloc b k => .alloc b (fun x => (k x).bind f g)
  | .dealloc a b k => .dealloc a b (k.bind f g)
  | .getSlot a i k => .getSlot a i (fun x => (k x).bind f g)
  | .setSlot a i s k => .setSlot a i s (k.bind f g)
  | .setOwner l o k => .setOwner l o (k.bind f g)
  | .getLive l k => .getLive l (fun x => (k x).bind f g)
  | .setLive l v k => .setLive l v (k.bind f g)
  | .construct l m v how k => .construct l m v how (k.bind f g)
  | .destroy l m k => .destroy l m (k.bind f g)
  | .count t n k => .count t n (k.bind f g)
  | .log e k => .log e (k.bind f g)

/-- One program after another that does not throw. -/
def Prog.next {α β : Type} (P : Prog α) (f : α → Prog β) : Prog β := P.bind f (fun _ _ => .ub)

/-- One program after another; exceptions end both. -/
def Prog.andThen {α : Type} (P : Prog α) (f : α → Prog α) : Prog α := P.bind f .throw

/-- `object_mutation` (object_mutation.hpp 119-162). -/
structure Ses where
  o : Nat
  al : Nat
  oldTy : Option TypeId
  oldData : Option Nat
  ty : TypeId
  data : Option Nat
  alloced : Nat
  updated : Nat
  complete : Bool
  movedOut : Bool

section
variable (D : Decls) (E : TyEnv)

def Ses.oldIndex (s : Ses) (m : Mix) : Option (Nat × Nat) :=
  match s.oldData, s.oldTy with
  | some b, some t => (E.indexOf t m).map (fun i => (b, i))
  | _, _ => none

/-- One round of the loop in `allocate_mixin_data` (object_mutation.cpp 108-136). -/
def allocOne (s : Ses) : Prog Ses :=
  match s.data, (E.mixins s.ty)[s.alloced]? with
  | some a, some m =>
    if E.internal s.ty s.alloced then
      .setSlot a s.alloced ⟨none, (a, s.alloced)⟩ (.setOwner (a, s.alloced) s.o (.ok { s with alloced := s.alloced + 1 }))
    else
      match s.oldIndex E m with
      | some (b, i) => .getSlot b i (fun sl => .setSlot a s.alloced sl (.ok { s with alloced := s.alloced + 1 }))
      | none =>
        .outside (fun fails _ _ =>
          if fails then .throw s .badAlloc
          else .alloc (provenance D m s.al) (fun e => .setSlot a s.alloced ⟨some e, (e, 0)⟩ (.setOwner (e, 0) s.o (.ok { s with alloced := s.alloced + 1 }))))
  | _, _ => .ub

def allocLoop : Nat → Ses → Prog Ses
  | 0, s => .ok s
  | k + 1, s => (allocOne D E s).andThen (allocLoop k)

/-- `allocate_mixin_data` (object_mutation.cpp 87-138), `allocate_object_buffer` (type.cpp 136-140). -/
def allocateMixinData (s : Ses) : Prog Ses :=
  if s.oldTy = some s.ty then .ok { s with data := s.oldData }
  else
    .outside (fun fails _ _ =>
      if fails then .throw s .badAlloc
      else .alloc (.unified s.ty s.al) (fun a => .count s.ty 1 (allocLoop D E (E.mixins s.ty).length { s with data := some a })))

/-- `destroy_new_mixins` (object_mutation.cpp 176-185). -/
def destroyLoop (s : Ses) : Nat → Prog Unit
  | 0 => .ok ()
  | i + 1 =>
    match s.data, (E.mixins s.ty)[i]? with
    | some a, some m =>
      match s.oldIndex E m with
      | some _ => destroyLoop s i
      | none => .getSlot a i (fun sl => .destroy sl.loc m (destroyLoop s i))
    | _, _ => .ub

/-- `deallocate_mixin_data` (object_mutation.cpp 144-164). -/
def deallocLoop (s : Ses) : Nat → Prog Unit
  | 0 => .ok ()
  | i + 1 =>
    match s.data, (E.mixins s.ty)[i]? with
    | some a, some m =>
      .getSlot a i (fun sl =>
        match sl.buf with
        | none => deallocLoop s i
        | some e =>
          match s.oldIndex E m with
          | some _ => deallocLoop s i
          | none => .dealloc e (provenance D m s.al) (deallocLoop s i))
    | _, _ => .ub

/-- `rollback` (object_mutation.cpp 187-196). -/
def rollback (s : Ses) : Prog Ses :=
  if s.oldTy = some s.ty then .ok { s with complete := false, movedOut := true }
  else
    (destroyLoop E s s.updated).next (fun _ => (deallocLoop D E s s.alloced).next (fun _ =>
      match s.data with
      | none => .ok { s with updated := 0, alloced := 0, complete := false, movedOut := true }
      | some a =>
        .dealloc a (.unified s.ty s.al) (.count s.ty (-1) (.ok { s with updated := 0, alloced := 0, data := none, complete := false, movedOut := true }))))

/-- One round of the loop of `finalize` (object_mutation.cpp 211-245). -/
def finalizeOne (s : Ses) (b a : Nat) (oi : Nat) (m : Mix) : Prog Unit :=
  .getSlot b oi (fun old =>
    match E.indexOf s.ty m with
    | some ti =>
      match old.buf with
      | some _ => .ok ()
      | none =>
        .getSlot a ti (fun new => .getLive old.loc (fun lv =>
          match lv with
          | some (m', v) =>
            if m' = m ∧ (D.mix m).hasMoveInit then
              .construct new.loc m v (.moved old.loc) (.outside (fun _ w _ => .setLive old.loc (some (m, w)) (.destroy old.loc m (.ok ()))))
            else .ub
          | none => .ub))
    | none =>
      .destroy old.loc m (match old.buf with
        | none => .ok ()
        | some e => .dealloc e (provenance D m s.al) (.ok ())))

def finalizeLoop (s : Ses) (b a : Nat) : Nat → List Mix → Prog Unit
  | _, [] => .ok ()
  | oi, m :: ms => (finalizeOne D E s b a oi m).next (fun _ => finalizeLoop s b a (oi + 1) ms)

/-- The end of `finalize` (object_mutation.cpp 254-255). -/
def attach (s : Ses) (s' : Ses) : Prog Ses :=
  .getObj s.o (fun x =>
    match x with
    | none => .ok s'
    | some ob => .setObj s.o (some { ob with ty := some s.ty, data := s.data }) (.ok s'))

/-- `finalize` (object_mutation.cpp 198-256). -/
def finalize (s : Ses) : Prog Ses :=
  if !s.complete then .ok s
  else if s.oldTy = some s.ty then .ok { s with oldData := none, oldTy := none }
  else
    match s.oldData, s.oldTy with
    | none, _ => attach s s
    | some b, some t =>
      match s.data with
      | none => .ub
      | some a =>
        (finalizeLoop D E s b a 0 (E.mixins t)).next (fun _ => .dealloc b (.unified t s.al) (.count t (-1) (attach s { s with oldData := none, oldTy := none })))
    | some _, none => .ub

/-- Reading the mixin with index `i` in the buffer `b`. -/
def readMixin {α : Type} (b i : Nat) (k : Loc → Mix → Nat → Prog α) : Prog α :=
  .getSlot b i (fun sl => .getLive sl.loc (fun lv =>
    match lv with
    | none => .ub
    | some (m, v) => k sl.loc m v))

/-- Reading the mixin with index `i` of object `src`. -/
def readSource {α : Type} (src i : Nat) (k : Loc → Mix → Nat → Prog α) : Prog α :=
  .getObj src (fun x =>
    match x.bind (·.data) with
    | none => .ub
    | some b => readMixin b i k)

/-- Construction of a new mixin (object_mutation.cpp 259-264, object.cpp 78-84, 110-114). -/
def constructNew (f : NewFn) (s : Ses) (m : Mix) (ti : Nat) (l : Loc) : Prog Ses :=
  match f with
  | .dflt =>
    if !(D.mix m).hasInit then .throw s (.missingFunc m)
    else .outside (fun fails v n => if fails then .throw s (.user n) else .construct l m v .dflt (.ok s))
  | .custom k => .outside (fun fails v n => if fails then .throw s (.user n) else .construct l m v (.custom k) (.ok s))
  | .copy src checked =>
    readSource src ti (fun sl m' v =>
      if m' ≠ m then .ub
      else if !(D.mix m).hasCopyInit then (if checked then .throw s (.missingFunc m) else .ub)
      else .outside (fun fails _ n => if fails then .throw s (.user n) else .construct l m v (.copied sl) (.ok s)))

/-- Update of a common mixin (object.cpp 115-119). -/
def updateCommon (g : UpdFn) (s : Ses) (m : Mix) (ti : Nat) (l : Loc) : Prog Ses :=
  match g with
  | .noop => .ok s
  | .custom k =>
    .getLive l (fun lv =>
      match lv with
      | none => .ub
      | some (m', _) =>
        if m' ≠ m then .ub
        else .outside (fun fails w n => .setLive l (some (m, w)) (.log (.update m l k) (if fails then .throw s (.user n) else .ok s))))
  | .assign src =>
    .getLive l (fun lv =>
      match lv with
      | none => .ub
      | some (m', _) =>
        readSource src ti (fun sl m'' v =>
          if m' ≠ m ∨ m'' ≠ m ∨ !(D.mix m).hasCopyAsgn then .ub
          else .outside (fun fails w n => .setLive l (some (m, if fails then w else v)) (.log (.copyAsgn m l sl) (if fails then .throw s (.user n) else .ok s)))))

def Ses.advanced (s : Ses) : Ses := { s with updated := s.updated + 1, complete := s.updated + 1 == (E.mixins s.ty).length }

/-- `update_next_mixin` (object_mutation.hpp 38-55). -/
def updateNext (f : NewFn) (g : UpdFn) (s : Ses) : Prog Ses :=
  if s.complete then .ok s
  else
    match (E.mixins s.ty)[s.updated]? with
    | none => .ub
    | some m =>
      match s.oldIndex E m with
      | some (b, oi) => .getSlot b oi (fun sl => (updateCommon D g s m s.updated sl.loc).andThen (fun s => .ok (s.advanced E)))
      | none =>
        match s.data with
        | none => .ub
        | some a => .getSlot a s.updated (fun sl => (constructNew D f s m s.updated sl.loc).andThen (fun s => .ok (s.advanced E)))

def updateLoop (f : NewFn) (g : UpdFn) : Nat → Ses → Prog Ses
  | 0, s => .ok s
  | n + 1, s => (updateNext D E f g s).andThen (updateLoop f g n)

/-- `update_each_mixin` (object_mutation.hpp 60-66). -/
def updateEach (f : NewFn) (g : UpdFn) (upto : Option Nat) (s : Ses) : Prog Ses :=
  updateLoop D E f g (min (upto.getD (E.mixins s.ty).length) (E.mixins s.ty).length - s.updated) s

/-- `update_at` (object_mutation.hpp 86-92). -/
def updateAt (i : Nat) (f : NewFn) (g : UpdFn) (s : Ses) : Prog Ses :=
  if i < s.updated ∨ i > (E.mixins s.ty).length then .throw s .outOfOrder
  else (updateEach D E .dflt .noop (some i) s).andThen (updateNext D E f g)

/-- Constructor (object_mutation.cpp 14-35). -/
def Ses.begin (o : Nat) (ob : Obj) (t : TypeId) : Ses := ⟨o, ob.alloc, ob.ty, ob.data, t, none, 0, 0, false, false⟩

/-- Destructor (object_mutation.cpp 48-66). -/
def Ses.dtor (u : Bool) (s : Ses) : Prog Unit :=
  if s.movedOut then .ok ()
  else if u then (rollback D E s).next (fun _ => .ok ())
  else
    (updateEach D E .dflt .noop none s).bind
      (fun s =>
        if s.complete then (finalize D E s).next (fun _ => .ok ())
        else .log .assertFailed ((finalize D E s).next (fun _ => .ok ())))
      (fun s e => (rollback D E s).next (fun _ => .throw () e))

def mstep (s : Ses) : MStep → Prog Ses
  | .next f g => updateNext D E f g s
  | .each f g upto => updateEach D E f g upto s
  | .at i f g => updateAt D E i f g s
  | .finalize => finalize D E s
  | .rollback => rollback D E s
  | .throw => .throw s .outside

def msteps : List (MStep × Bool) → Ses → Prog Ses
  | [], s => .ok s
  | (st, caught) :: rest, s => (mstep D E s st).bind (msteps rest) (fun s e => if caught then msteps rest s else .throw s e)

def unwindWith (s : Ses) (e : XErr) : Prog Unit := (s.dtor D E true).bind (fun _ => .throw () e) (fun _ _ => .ub)

/-- A whole mutation with constructor and destructor. -/
def withMutation (u : Bool) (o : Nat) (t : TypeId) (steps : List (MStep × Bool)) : Prog Unit :=
  .getObj o (fun x =>
    match x with
    | none => .ub
    | some ob =>
      if ob.isSealed then unwindWith D E (Ses.begin o ob t) .isSealed
      else
        (allocateMixinData D E (Ses.begin o ob t)).bind
          (fun s => (msteps D E steps s).bind (Ses.dtor D E u) (unwindWith D E))
          (unwindWith D E))

/-- `perform_object_mutation` (object_mutation.hpp 168-183). -/
def perform (u : Bool) (o : Nat) (t : TypeId) (f : NewFn) (g : UpdFn) : Prog Unit := withMutation D E u o t [(.each f g none, false)]

/-- `clear_mixin_data` (object.cpp 295-301). -/
def clearMixinData (o : Nat) : Prog Unit :=
  .getObj o (fun x =>
    match x with
    | none => .ub
    | some ob =>
      match ob.data, ob.ty with
      | none, _ => .ok ()
      | some a, some t =>
        (rollback D E ⟨o, ob.alloc, none, none, t, some a, (E.mixins t).length, (E.mixins t).length, false, false⟩).next
          (fun _ => .setObj o (some { ob with data := none }) (.ok ()))
      | some _, none => .ub)

/-- The loop of `usurp` (object.cpp 309-311). -/
def redirect (o : Nat) (a : Nat) : Nat → Prog Unit
  | 0 => .ok ()
  | i + 1 => (redirect o a i).next (fun _ => .getSlot a i (fun sl => .setOwner sl.loc o (.ok ())))

/-- `usurp` (object.cpp 303-316). -/
def usurp (o src : Nat) : Prog Unit :=
  .getObj o (fun x => .getObj src (fun y =>
    match x, y with
    | some ob, some sb =>
      match sb.ty with
      | none => .ub
      | some t =>
        .setObj o (some { ob with ty := sb.ty, data := sb.data, isSealed := sb.isSealed })
          ((match sb.data with
            | none => if (E.mixins t).length = 0 then .ok () else .ub
            | some a => redirect o a (E.mixins t).length : Prog Unit).next (fun _ => .setObj src (some { sb with ty := some (E.emptyOf t), data := none }) (.ok ())))
    | _, _ => .ub))

/-- The end of several operations: the type of object `o` is set. -/
def setType (o : Nat) (f : Obj → Obj) : Prog Unit :=
  .getObj o (fun x =>
    match x with
    | none => .ub
    | some ob => .setObj o (some (f ob)) (.ok ()))

/-- `reset_type` (object.cpp 242-254). -/
def resetType (u : Bool) (o : Nat) (t : TypeId) : Prog Unit :=
  .getObj o (fun x =>
    match x with
    | none => .ub
    | some ob =>
      if ob.isSealed then .throw () .isSealed
      else if ob.ty = some t then .ok ()
      else if (E.mixins t).length = 0 then (clearMixinData D E o).next (fun _ => setType o (fun ob => { ob with ty := some t }))
      else perform D E u o t .dflt .noop)

/-- `~object` (object.cpp 42-44). -/
def destroyObject (o : Nat) : Prog Unit := (clearMixinData D E o).next (fun _ => .setObj o none (.ok ()))

def unwindObject (o : Nat) (e : XErr) : Prog Unit := (destroyObject D E o).bind (fun _ => .throw () e) (fun _ _ => .ub)

/-- `object(type, alloc, create_sealed)` (object.cpp 24-29). -/
def newOfType (u : Bool) (t : TypeId) (al : Nat) (createSealed : Bool) : Prog Unit :=
  .addObj ⟨none, none, false, al⟩ (fun o =>
    (resetType D E u o t).bind (fun _ => setType o (fun ob => { ob with isSealed := createSealed })) (fun _ => unwindObject D E o))

/-- `object(object&&)` (object.cpp 31-35). -/
def moveConstruct (src : Nat) : Prog Unit :=
  .getObj src (fun x =>
    match x with
    | none => .ub
    | some sb => .addObj ⟨none, none, false, sb.alloc⟩ (fun o => usurp E o src))

/-- `operator=(object&&)` (object.cpp 46-57). -/
def moveAssign (o src : Nat) : Prog Unit :=
  if o = src then .ok ()
  else
    .getObj o (fun x => .getObj src (fun y =>
      match x, y with
      | some ob, some sb =>
        if ob.alloc = sb.alloc then
          if ob.isSealed then .throw () .isSealed
          else (clearMixinData D E o).next (fun _ => usurp E o src)
        else .throw () .allocMismatch
      | _, _ => .ub))

/-- `copy` (object.cpp 68-87). -/
def copyObject (u : Bool) (src : Nat) (al : Nat) : Prog Unit :=
  .getObj src (fun x =>
    match x with
    | none => .ub
    | some sb =>
      match sb.data, sb.ty with
      | none, _ => .addObj ⟨none, none, false, al⟩ (fun o => .setObj o (some ⟨sb.ty, none, false, al⟩) (.ok ()))
      | some _, some t => .addObj ⟨none, none, false, al⟩ (fun o => (perform D E u o t (.copy src true) .noop).bind .ok (fun _ => unwindObject D E o))
      | some _, none => .ub)

/-- `copy_from` (object.cpp 89-123). -/
def copyFrom (u : Bool) (o src : Nat) : Prog Unit :=
  .getObj o (fun x => .getObj src (fun y =>
    match x, y with
    | some ob, some sb =>
      match sb.data, sb.ty, ob.ty with
      | none, ty, _ =>
        if ob.isSealed then .throw () .isSealed
        else (clearMixinData D E o).next (fun _ => setType o (fun ob => { ob with ty := ty }))
      | some _, some t, some own =>
        match copyFromCheck D E own (E.mixins t) with
        | some m => .throw () (.missingFunc m)
        | none => perform D E u o t (.copy src false) (.assign src)
      | _, _, _ => .ub
    | _, _ => .ub))

/-- Reading a mixin in a buffer that may be missing. -/
def readMixin? {α : Type} (b : Option Nat) (i : Nat) (k : Loc → Mix → Nat → Prog α) : Prog α :=
  match b with
  | none => .ub
  | some b => readMixin b i k

/-- The loop of `copy_matching_from` (object.cpp 140-149). -/
def copyMatchingLoop (own : TypeId) (a b : Option Nat) : Nat → List Mix → Prog Unit
  | _, [] => .ok ()
  | i, m :: ms =>
    match E.indexOf own m with
    | none => copyMatchingLoop own a b (i + 1) ms
    | some oi =>
      readMixin? a oi (fun l m' _ => readMixin? b i (fun sl m'' v =>
        if m' ≠ m ∨ m'' ≠ m ∨ (D.mix m).hasCopyAsgn = false then .ub
        else .outside (fun fails w n => .setLive l (some (m, if fails then w else v)) (.log (.copyAsgn m l sl)
          (if fails then .throw () (.user n) else copyMatchingLoop own a b (i + 1) ms)))))

/-- `copy_matching_from` (object.cpp 125-150). -/
def copyMatchingFrom (o src : Nat) : Prog Unit :=
  .getObj o (fun x => .getObj src (fun y =>
    match x, y with
    | some ob, some sb =>
      match ob.ty, sb.ty with
      | some own, some t =>
        match copyMatchingCheck D E own (E.mixins t) with
        | some m => .throw () (.missingFunc m)
        | none => copyMatchingLoop D E own ob.data sb.data 0 (E.mixins t)
      | _, _ => .ub
    | _, _ => .ub))

/-- The loop of `move_matching_from` (object.cpp 167-187). -/
def moveMatchingLoop (own : TypeId) (a b : Option Nat) : Nat → List Mix → Prog Unit
  | _, [] => .ok ()
  | i, m :: ms =>
    match E.indexOf own m with
    | none => moveMatchingLoop own a b (i + 1) ms
    | some oi =>
      readMixin? a oi (fun l m' _ => readMixin? b i (fun sl m'' v =>
        if m' ≠ m ∨ m'' ≠ m then .ub
        else if (D.mix m).hasMoveAsgn then
          .outside (fun _ w _ => .setLive l (some (m, v)) (.setLive sl (some (m, w)) (.log (.moveAsgn m l sl) (moveMatchingLoop own a b (i + 1) ms))))
        else
          .destroy l m (.getLive sl (fun lv =>
            match lv with
            | none => .ub
            | some (_, v) =>
              if (D.mix m).hasMoveInit = false then .ub
              else .construct l m v (.moved sl) (.outside (fun _ w _ => .setLive sl (some (m, w)) (moveMatchingLoop own a b (i + 1) ms)))))))

/-- `move_matching_from` (object.cpp 152-188). -/
def moveMatchingFrom (o src : Nat) (fallback : Bool) : Prog Unit :=
  .getObj o (fun x => .getObj src (fun y =>
    match x, y with
    | some ob, some sb =>
      match ob.ty, sb.ty with
      | some own, some t =>
        match moveMatchingCheck D E own fallback (E.mixins t) with
        | some m => .throw () (.missingFunc m)
        | none => moveMatchingLoop D E own ob.data sb.data 0 (E.mixins t)
      | _, _ => .ub
    | _, _ => .ub))

/-- `clear` (object.cpp 236-240). -/
def clearObject (o : Nat) : Prog Unit :=
  .getObj o (fun x =>
    match x with
    | none => .ub
    | some ob =>
      if ob.isSealed then .throw () .isSealed
      else
        match ob.ty with
        | none => .ub
        | some t => (clearMixinData D E o).next (fun _ => setType o (fun ob => { ob with ty := some (E.emptyOf t) })))

/-- `seal` (object.hpp 188). -/
def sealObject (o : Nat) : Prog Unit := setType o (fun ob => { ob with isSealed := true })

/-- `mutate_to` with operations (mutate_to.hpp 16-56). -/
def mutateTo (u : Bool) (o : Nat) (t : TypeId) (ops : List InitOp) : Prog Unit :=
  .getObj o (fun x =>
    match x with
    | none => .ub
    | some ob => if ob.ty = some t then .ok () else withMutation D E u o t (mutateToSteps (sortedOps E t ops)))

/-- The program of each operation. -/
def program (u : Bool) : OOp → Prog Unit
  | .newEmpty t al => .addObj ⟨some (E.emptyOf t), none, false, al⟩ (fun _ => .ok ())
  | .newOfType t al sd => newOfType D E u t al sd
  | .moveNew src => moveConstruct E src
  | .destroy o => destroyObject D E o
  | .moveAssign o src => moveAssign D E o src
  | .copy src al => copyObject D E u src al
  | .copyFrom o src => copyFrom D E u o src
  | .copyMatching o src => copyMatchingFrom D E o src
  | .moveMatching o src fb => moveMatchingFrom D E o src fb
  | .clear o => clearObject D E o
  | .reset o t => resetType D E u o t
  | .seal o => sealObject o
  | .mutation o t steps => withMutation D E u o t steps
  | .mutateTo o t ops => mutateTo D E u o t ops

end

/-! ## Execution -/

/-- One step on memory; `none`: undefined behaviour. Programs that are over stay as they are. -/
def Prog.step {α : Type} (D : Decls) (orc : Orc) (h : Heap) : Prog α → Option (Heap × Prog α)
  | .ok a => some (h, .ok a)
  | .throw a e => some (h, .throw a e)
  | .ub => none
  | .getObj o k => some (h, k (h.obj? o))
  | .setObj o x k => some (h.setObj o x, k)
  | .addObj ob k => some ({ h with objs := h.objs ++ [some ob] }, k h.objs.length)
  | .outside k => some (h.ticked, k (orc.fail h.tick) (orc.val h.tick) h.tick)
  | .alloc b k => some (h.allocate b, k h.next)
  | .dealloc a b k => (h.deallocate a b).map (fun h => (h, k))
  | .getSlot a i k => (h.slot? a i).map (fun sl => (h, k sl))
  | .setSlot a i s k => some (h.setSlot a i s, k)
  | .setOwner l o k => some (h.setOwner l o, k)
  | .getLive l k => some (h, k (h.live l))
  | .setLive l v k => some (h.setLive l v, k)
  | .construct l m v how k => (h.construct l m v how).map (fun h => (h, k))
  | .destroy l m k => (h.destroy D l m).map (fun h => (h, k))
  | .count t n k => some (h.countUp t n, k)
  | .log e k => some (h.logged e, k)

/-- A program without interruption. -/
def Prog.run {α : Type} (D : Decls) (orc : Orc) : Prog α → Heap → Res (Heap × α)
  | .ok a, h => .ok (h, a)
  | .throw a e, h => .throw (h, a) e
  | .ub, _ => .ub
  | .getObj o k, h => (k (h.obj? o)).run D orc h
  | .setObj o x k, h => k.run D orc (h.setObj o x)
  | .addObj ob k, h => (k h.objs.length).run D orc { h with objs := h.objs ++ [some ob] }
  | .outside k, h => (k (orc.fail h.tick) (orc.val h.tick) h.tick).run D orc h.ticked
  | .alloc b k, h => (k h.next).run D orc (h.allocate b)
  | .dealloc a b k, h => match h.deallocate a b with
    | none => .ub
    | some h => k.run D orc h
  | .getSlot a i k, h => match h.slot? a i with
    | none => .ub
    | some sl => (k sl).run D orc h
  | .setSlot a i s k, h => k.run D orc (h.setSlot a i s)
  | .setOwner l o k, h => k.run D orc (h.setOwner l o)
  | .getLive l k, h => (k (h.live l)).run D orc h
  | .setLive l v k, h => k.run D orc (h.setLive l v)
  | .construct l m v how k, h => match h.construct l m v how with
    | none => .ub
    | some h => k.run D orc h
  | .destroy l m k, h => match h.destroy D l m with
    | none => .ub
    | some h => k.run D orc h
  | .count t n k, h => k.run D orc (h.countUp t n)
  | .log e k, h => k.run D orc (h.logged e)

end Dnmx.Steps
