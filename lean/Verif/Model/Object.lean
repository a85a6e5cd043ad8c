import Verif.Model.Domain

/-!
# Objects

Model of `object` (code/dynamix/object.cpp, object.hpp), `object_mutation` (object_mutation.cpp, object_mutation.hpp) and
the functions that use it (mutate.hpp, mutate_to.hpp, mutate-c.cpp) on a heap.

* Addresses are numbers that are never reused. A block is the unified buffer of an object (with its array of mixin data)
  or the separate buffer of an external mixin. A block remembers how it was allocated; giving it back in any other way is
  undefined behaviour.
* A mixin lives at a place: a block and a position in it (0 in separate buffers). The heap knows which mixins are constructed
  at which places, with a value each. Using or destroying a mixin that does not live, and constructing over a living one,
  is undefined behaviour, and so is each access to missing memory or a null pointer.
* What user functions do is determined by an oracle (`Orc`): whether the n-th call of the outside world fails and the value it
  leaves. Allocations may fail, too. Mixin destructors and move functions do not fail. User functions do not use objects
  themselves (simplification).
* `std::uncaught_exceptions() > 0` outside of the operation is a parameter of each operation.
* Assertions are off (`NDEBUG`), but a failing one leaves a trace in the log.
* Types are given by an environment (`TyEnv`). The environment says what lookups by id give; within a domain this is the same as lookups by
  identity (`C26_index_of_in_domain`; see `TyEnv.ofWorld`). For several domains see `Model/ObjectDomains.lean`.
-/

namespace Dnmx

/-! ## Types and heaps -/

/-- What objects use of types: `mixins`, `mixin_offsets` (nonzero or not), `index_of(info.id)`, `dom.get_empty_type()`. -/
structure TyEnv where
  mixins : TypeId → List Mix
  internal : TypeId → Nat → Bool
  indexOf : TypeId → Mix → Option Nat
  emptyOf : TypeId → TypeId

/-- The types of a domain as an environment for objects. -/
def TyEnv.ofWorld (W : World) (d : DomId) : TyEnv where
  mixins t := ((W.doms d).typeAt d t).elim [] (·.mixins)
  internal t i := ((W.doms d).typeAt d t).elim false (fun r => ((r.layout.offsets[i]?).getD 0) != 0)
  indexOf t m := ((W.doms d).typeAt d t).elim none (fun r => r.indexOf (W.mixId m))
  emptyOf _ := emptyTid

/-- How a block was allocated: as unified buffer of a type by an object allocator (`allocate_object_buffer`, type.cpp
136-140), or as buffer of an external mixin by the allocator of the object or, if `none`, by that of the mixin. -/
inductive Blk
  | unified (t : TypeId) (al : Nat)
  | ext (m : Mix) (al : Option Nat)
deriving DecidableEq, Repr

abbrev Loc := Nat × Nat

/-- `dnmx_object_mixin_data` (code/dnmx/object_mixin_data.h 10-21). -/
structure Slot where
  buf : Option Nat
  loc : Loc
deriving DecidableEq, Repr

/-- `object`: `m_type`, `m_mixin_data`, `m_sealed`, `m_allocator`. -/
structure Obj where
  ty : Option TypeId
  data : Option Nat
  isSealed : Bool
  alloc : Nat
deriving DecidableEq, Repr

inductive How
  | dflt
  | custom (k : Nat)
  | copied (src : Loc)
  | moved (src : Loc)
deriving DecidableEq, Repr

/-- What can be observed from outside: calls of user functions and allocations. -/
inductive Ev
  | alloc (a : Nat) (b : Blk)
  | dealloc (a : Nat)
  | init (m : Mix) (l : Loc) (how : How)
  | destroy (m : Mix) (l : Loc)
  | update (m : Mix) (l : Loc) (k : Nat)
  | copyAsgn (m : Mix) (l src : Loc)
  | moveAsgn (m : Mix) (l src : Loc)
  | assertFailed
deriving DecidableEq, Repr

structure Heap where
  objs : List (Option Obj) := []
  blk : Nat → Option Blk := fun _ => none
  slot : Nat → Nat → Option Slot := fun _ _ => none
  live : Loc → Option (Mix × Nat) := fun _ => none
  owner : Loc → Option Nat := fun _ => none
  next : Nat := 0
  count : TypeId → Int := fun _ => 0
  tick : Nat := 0
  log : List Ev := []

/-- Errors of object operations. -/
inductive XErr
  | isSealed
  | badAlloc
  | missingFunc (m : Mix)
  | user (n : Nat)
  | outOfOrder
  | allocMismatch
  | outside
deriving DecidableEq, Repr

/-- Outcomes; `throw` with the state at that time. -/
inductive Res (σ : Type)
  | ok (s : σ)
  | throw (s : σ) (e : XErr)
  | ub

def Res.bind {σ τ : Type} (r : Res σ) (f : σ → Res τ) (g : σ → XErr → Res τ) : Res τ :=
  match r with
  | .ok s => f s
  | .throw s e => g s e
  | .ub => .ub

/-- What the outside world does at its n-th call. -/
structure Orc where
  fail : Nat → Bool
  val : Nat → Nat

/-! ## Primitive steps -/

namespace Heap

def obj? (h : Heap) (o : Nat) : Option Obj := (h.objs[o]?).getD none

@[reducible] def setObj (h : Heap) (o : Nat) (ob : Option Obj) : Heap := { h with objs := h.objs.set o ob }

@[reducible] def ticked (h : Heap) : Heap := { h with tick := h.tick + 1 }

@[reducible] def logged (h : Heap) (e : Ev) : Heap := { h with log := h.log ++ [e] }

/-- A new block, at address `next`. -/
@[reducible] def allocate (h : Heap) (b : Blk) : Heap :=
  { h with blk := fun a => if a = h.next then some b else h.blk a, next := h.next + 1, log := h.log ++ [.alloc h.next b] }

def deallocate (h : Heap) (a : Nat) (b : Blk) : Option Heap :=
  if h.blk a = some b then some { h with blk := fun x => if x = a then none else h.blk x, log := h.log ++ [.dealloc a] } else none

@[reducible] def setSlot (h : Heap) (a i : Nat) (s : Slot) : Heap :=
  { h with slot := fun x j => if x = a ∧ j = i then some s else h.slot x j }

@[reducible] def setOwner (h : Heap) (l : Loc) (o : Nat) : Heap := { h with owner := fun x => if x = l then some o else h.owner x }

@[reducible] def setLive (h : Heap) (l : Loc) (v : Option (Mix × Nat)) : Heap := { h with live := fun x => if x = l then v else h.live x }

/-- Reading the mixin data with index `i` in the unified buffer `a`; there is nothing to read in a buffer that was given back. -/
def slot? (h : Heap) (a i : Nat) : Option Slot := if (h.blk a).isSome then h.slot a i else none

/-- The start of the life of a mixin. -/
def construct (h : Heap) (l : Loc) (m : Mix) (v : Nat) (how : How) : Option Heap :=
  if (h.blk l.1).isSome ∧ h.live l = none then some ((h.setLive l (some (m, v))).logged (.init m l how)) else none

/-- The end of the life of a mixin; the destructor is called if there is one. -/
def destroy (D : Decls) (h : Heap) (l : Loc) (m : Mix) : Option Heap :=
  match h.live l with
  | some (m', _) =>
    if m' = m ∧ (h.blk l.1).isSome then
      some (if (D.mix m).hasDestroy then (h.setLive l none).logged (.destroy m l) else h.setLive l none)
    else none
  | none => none

@[reducible] def countUp (h : Heap) (t : TypeId) (n : Int) : Heap := { h with count := fun x => if x = t then h.count x + n else h.count x }

end Heap

/-! ## object_mutation -/

/-- `object_mutation` (object_mutation.hpp 119-162) with the heap. -/
structure Sess where
  h : Heap
  /-- `m_object` and its allocator -/
  o : Nat
  al : Nat
  oldTy : Option TypeId
  oldData : Option Nat
  ty : TypeId
  data : Option Nat
  alloced : Nat
  updated : Nat
  complete : Bool
  movedOut : Bool

/-- Functions that make a new mixin. `copy` is that of `object::copy` and `copy_from`: from the mixin of `src` with the
same index; a missing function is an error if it is checked for. -/
inductive NewFn
  | dflt
  | custom (k : Nat)
  | copy (src : Nat) (checked : Bool)
deriving DecidableEq, Repr

/-- Functions that update a common mixin. -/
inductive UpdFn
  | noop
  | custom (k : Nat)
  | assign (src : Nat)
deriving DecidableEq, Repr

section
variable (D : Decls) (E : TyEnv) (orc : Orc)

/-- The allocation of an external mixin (object_mutation.cpp 68-75 and 123-131). -/
def provenance (m : Mix) (al : Nat) : Blk := .ext m (if (D.mix m).hasAllocator then none else some al)

/-- `m_old_mixin_data && m_old_type->has(info.id)`, with the place of the old mixin data. -/
def Sess.oldIndex (s : Sess) (m : Mix) : Option (Nat × Nat) :=
  match s.oldData, s.oldTy with
  | some b, some t => (E.indexOf t m).map (fun i => (b, i))
  | _, _ => none

/-- One round of the loop in `allocate_mixin_data` (object_mutation.cpp 108-136). -/
def allocOne (s : Sess) : Res Sess :=
  match s.data, (E.mixins s.ty)[s.alloced]? with
  | some a, some m =>
    if E.internal s.ty s.alloced then
      .ok { s with h := (s.h.setSlot a s.alloced ⟨none, (a, s.alloced)⟩).setOwner (a, s.alloced) s.o, alloced := s.alloced + 1 }
    else
      match s.oldIndex E m with
      | some (b, i) =>
        match s.h.slot? b i with
        | none => .ub
        | some sl => .ok { s with h := s.h.setSlot a s.alloced sl, alloced := s.alloced + 1 }
      | none =>
        if orc.fail s.h.tick then .throw { s with h := s.h.ticked } .badAlloc
        else
          let e := s.h.next
          .ok { s with h := (((s.h.ticked.allocate (provenance D m s.al)).setSlot a s.alloced ⟨some e, (e, 0)⟩).setOwner (e, 0) s.o), alloced := s.alloced + 1 }
  | _, _ => .ub

def allocLoop : Nat → Sess → Res Sess
  | 0, s => .ok s
  | k + 1, s => (allocOne D E orc s).bind (allocLoop k) .throw

/-- `allocate_mixin_data` (object_mutation.cpp 87-138), with `allocate_object_buffer` (type.cpp 136-140). -/
def allocateMixinData (s : Sess) : Res Sess :=
  if s.oldTy = some s.ty then .ok { s with data := s.oldData }
  else if orc.fail s.h.tick then .throw { s with h := s.h.ticked } .badAlloc
  else
    let h := (s.h.ticked.allocate (.unified s.ty s.al)).countUp s.ty 1
    allocLoop D E orc (E.mixins s.ty).length { s with h := h, data := some s.h.next }

/-- The loop of `destroy_new_mixins` (object_mutation.cpp 176-185), for the target mixins below `n`. -/
def destroyLoop (s : Sess) : Nat → Heap → Option Heap
  | 0, h => some h
  | i + 1, h =>
    match s.data, (E.mixins s.ty)[i]? with
    | some a, some m =>
      match s.oldIndex E m with
      | some _ => destroyLoop s i h
      | none =>
        match h.slot? a i with
        | none => none
        | some sl => (h.destroy D sl.loc m).bind (destroyLoop s i)
    | _, _ => none

/-- The loop of `deallocate_mixin_data` (object_mutation.cpp 144-164). -/
def deallocLoop (s : Sess) : Nat → Heap → Option Heap
  | 0, h => some h
  | i + 1, h =>
    match s.data, (E.mixins s.ty)[i]? with
    | some a, some m =>
      match h.slot? a i with
      | none => none
      | some sl =>
        match sl.buf with
        | none => deallocLoop s i h
        | some e =>
          match s.oldIndex E m with
          | some _ => deallocLoop s i h
          | none => (h.deallocate e (provenance D m s.al)).bind (deallocLoop s i)
    | _, _ => none

/-- `deallocate_object_buffer` (type.cpp 142-145). -/
def deallocBuffer (h : Heap) (t : TypeId) (al : Nat) (a : Nat) : Option Heap :=
  (h.deallocate a (.unified t al)).map (fun h => h.countUp t (-1))

/-- `rollback` (object_mutation.cpp 187-196, with 140-185). -/
def rollback (s : Sess) : Option Sess :=
  if s.oldTy = some s.ty then some { s with complete := false, movedOut := true }
  else
    match (destroyLoop D E s s.updated s.h).bind (deallocLoop D E s s.alloced) with
    | none => none
    | some h =>
      match s.data with
      | none => some { s with h := h, updated := 0, alloced := 0, complete := false, movedOut := true }
      | some a =>
        (deallocBuffer h s.ty s.al a).map
          (fun h => { s with h := h, updated := 0, alloced := 0, data := none, complete := false, movedOut := true })

/-- One round of the loop of `finalize` (object_mutation.cpp 211-245); `b` is the old buffer, `a` the new one. -/
def finalizeOne (s : Sess) (b a : Nat) (oi : Nat) (m : Mix) (h : Heap) : Option Heap :=
  match h.slot? b oi with
  | none => none
  | some old =>
    match E.indexOf s.ty m with
    | some ti =>
      match old.buf with
      | some _ => some h
      | none =>
        match h.slot? a ti, h.live old.loc with
        | some new, some (m', v) =>
          if m' = m ∧ (D.mix m).hasMoveInit then
            (h.construct new.loc m v (.moved old.loc)).bind (fun h =>
              ((h.setLive old.loc (some (m, orc.val h.tick))).ticked).destroy D old.loc m)
          else none
        | _, _ => none
    | none =>
      match h.destroy D old.loc m with
      | none => none
      | some h =>
        match old.buf with
        | none => some h
        | some e => h.deallocate e (provenance D m s.al)

/-- The loop, over the old mixins from index `oi` on. -/
def finalizeLoop (s : Sess) (b a : Nat) : Nat → List Mix → Heap → Option Heap
  | _, [], h => some h
  | oi, m :: ms, h => (finalizeOne D E orc s b a oi m h).bind (finalizeLoop s b a (oi + 1) ms)

/-- The end of `finalize` (object_mutation.cpp 254-255). -/
def attach (s : Sess) (h : Heap) : Sess :=
  match h.obj? s.o with
  | none => { s with h := h }
  | some ob => { s with h := h.setObj s.o (some { ob with ty := some s.ty, data := s.data }) }

/-- `finalize` (object_mutation.cpp 198-256). -/
def finalize (s : Sess) : Option Sess :=
  if !s.complete then some s
  else if s.oldTy = some s.ty then some { s with oldData := none, oldTy := none }
  else
    match s.oldData, s.oldTy with
    | none, _ => some (attach s s.h)
    | some b, some t =>
      match s.data with
      | none => none
      | some a =>
        match (finalizeLoop D E orc s b a 0 (E.mixins t) s.h).bind (fun h => deallocBuffer h t s.al b) with
        | none => none
        | some h => some { attach s h with oldData := none, oldTy := none }
    | some _, none => none

/-- The value of the mixin of `src` at index `i`, with its place. -/
def sourceAt (h : Heap) (src i : Nat) : Option (Loc × Mix × Nat) :=
  match (h.obj? src).bind (·.data) with
  | none => none
  | some b =>
    match h.slot? b i with
    | none => none
    | some sl => (h.live sl.loc).map (fun v => (sl.loc, v))

/-- Construction of a new mixin `m` at target index `ti`: default (object_mutation.cpp 259-264), by an outside function, or by copy
(object.cpp 78-84, 110-114). -/
def constructNew (f : NewFn) (s : Sess) (m : Mix) (ti : Nat) (l : Loc) : Res Sess :=
  match f with
  | .dflt =>
    if !(D.mix m).hasInit then .throw s (.missingFunc m)
    else if orc.fail s.h.tick then .throw { s with h := s.h.ticked } (.user s.h.tick)
    else
      match s.h.ticked.construct l m (orc.val s.h.tick) .dflt with
      | none => .ub
      | some h => .ok { s with h := h }
  | .custom k =>
    if orc.fail s.h.tick then .throw { s with h := s.h.ticked } (.user s.h.tick)
    else
      match s.h.ticked.construct l m (orc.val s.h.tick) (.custom k) with
      | none => .ub
      | some h => .ok { s with h := h }
  | .copy src checked =>
    match sourceAt s.h src ti with
    | none => .ub
    | some (sl, m', v) =>
      if m' ≠ m then .ub
      else if !(D.mix m).hasCopyInit then (if checked then .throw s (.missingFunc m) else .ub)
      else if orc.fail s.h.tick then .throw { s with h := s.h.ticked } (.user s.h.tick)
      else
        match s.h.ticked.construct l m v (.copied sl) with
        | none => .ub
        | some h => .ok { s with h := h }

/-- Update of a common mixin `m` that lives at `l` (noop, outside function, copy assignment in object.cpp 115-119). A failing
function may have changed the mixin. -/
def updateCommon (g : UpdFn) (s : Sess) (m : Mix) (ti : Nat) (l : Loc) : Res Sess :=
  match g with
  | .noop => .ok s
  | .custom k =>
    match s.h.live l with
    | none => .ub
    | some (m', _) =>
      if m' ≠ m then .ub
      else
        let h := (s.h.setLive l (some (m, orc.val s.h.tick))).ticked.logged (.update m l k)
        if orc.fail s.h.tick then .throw { s with h := h } (.user s.h.tick) else .ok { s with h := h }
  | .assign src =>
    match s.h.live l, sourceAt s.h src ti with
    | some (m', _), some (sl, m'', v) =>
      if m' ≠ m ∨ m'' ≠ m ∨ !(D.mix m).hasCopyAsgn then .ub
      else if orc.fail s.h.tick then
        .throw { s with h := (s.h.setLive l (some (m, orc.val s.h.tick))).ticked.logged (.copyAsgn m l sl) } (.user s.h.tick)
      else .ok { s with h := (s.h.setLive l (some (m, v))).ticked.logged (.copyAsgn m l sl) }
    | _, _ => .ub

/-- `++m_updated_upto` and the update of `m_complete` (object_mutation.hpp 53-54). -/
def Sess.advanced (s : Sess) : Sess :=
  { s with updated := s.updated + 1, complete := s.updated + 1 == (E.mixins s.ty).length }

/-- `update_next_mixin` (object_mutation.hpp 38-55). -/
def updateNext (f : NewFn) (g : UpdFn) (s : Sess) : Res Sess :=
  if s.complete then .ok s
  else
    match (E.mixins s.ty)[s.updated]? with
    | none => .ub
    | some m =>
      match s.oldIndex E m with
      | some (b, oi) =>
        match s.h.slot? b oi with
        | none => .ub
        | some sl => (updateCommon D orc g s m s.updated sl.loc).bind (fun s => .ok (s.advanced E)) .throw
      | none =>
        match s.data with
        | none => .ub
        | some a =>
          match s.h.slot? a s.updated with
          | none => .ub
          | some sl => (constructNew D orc f s m s.updated sl.loc).bind (fun s => .ok (s.advanced E)) .throw

/-- `n` rounds of `update_next_mixin`. -/
def updateLoop (f : NewFn) (g : UpdFn) : Nat → Sess → Res Sess
  | 0, s => .ok s
  | n + 1, s => (updateNext D E orc f g s).bind (updateLoop f g n) .throw

/-- `update_each_mixin` (object_mutation.hpp 60-66); `none` is the default argument (no limit). Each round advances by one. -/
def updateEach (f : NewFn) (g : UpdFn) (upto : Option Nat) (s : Sess) : Res Sess :=
  updateLoop D E orc f g (min (upto.getD (E.mixins s.ty).length) (E.mixins s.ty).length - s.updated) s

/-- `update_at` (object_mutation.hpp 86-92). -/
def updateAt (i : Nat) (f : NewFn) (g : UpdFn) (s : Sess) : Res Sess :=
  if i < s.updated ∨ i > (E.mixins s.ty).length then .throw s .outOfOrder
  else (updateEach D E orc .dflt .noop (some i) s).bind (updateNext D E orc f g) .throw

/-- Constructor (object_mutation.cpp 14-35) without the exception handling: that is in `withMutation`. -/
@[reducible] def Sess.begin (h : Heap) (o : Nat) (ob : Obj) (t : TypeId) : Sess :=
  ⟨h, o, ob.alloc, ob.ty, ob.data, t, none, 0, 0, false, false⟩

/-- Destructor (object_mutation.cpp 48-66); `u`: there are uncaught exceptions. -/
def Sess.dtor (u : Bool) (s : Sess) : Res Heap :=
  if s.movedOut then .ok s.h
  else if u then
    match rollback D E s with
    | none => .ub
    | some s => .ok s.h
  else
    match updateEach D E orc .dflt .noop none s with
    | .ub => .ub
    | .throw s e =>
      match rollback D E s with
      | none => .ub
      | some s => .throw s.h e
    | .ok s =>
      let s := if s.complete then s else { s with h := s.h.logged .assertFailed }
      match finalize D E orc s with
      | none => .ub
      | some s => .ok s.h

/-- What a user can do with a mutation. -/
inductive MStep
  | next (f : NewFn) (g : UpdFn)
  | each (f : NewFn) (g : UpdFn) (upto : Option Nat)
  | at (i : Nat) (f : NewFn) (g : UpdFn)
  | finalize
  | rollback
  /-- an exception that has nothing to do with the mutation -/
  | throw
deriving DecidableEq, Repr

def mstep (s : Sess) : MStep → Res Sess
  | .next f g => updateNext D E orc f g s
  | .each f g upto => updateEach D E orc f g upto s
  | .at i f g => updateAt D E orc i f g s
  | .finalize => match Dnmx.finalize D E orc s with
    | none => .ub
    | some s => .ok s
  | .rollback => match Dnmx.rollback D E s with
    | none => .ub
    | some s => .ok s
  | .throw => .throw s .outside

/-- Steps, each with a flag whether its exceptions are caught at once. -/
def msteps : List (MStep × Bool) → Sess → Res Sess
  | [], s => .ok s
  | (st, caught) :: rest, s => (mstep D E orc s st).bind (msteps rest) (fun s e => if caught then msteps rest s else .throw s e)

/-- The end of a mutation by an exception: the destructor during unwinding, then the exception goes on. -/
def unwindWith (s : Sess) (e : XErr) : Res Heap :=
  (s.dtor D E orc true).bind (fun h => .throw h e) (fun _ _ => .ub)

/-- A whole mutation `{ object_mutation mut(obj, t); steps }` with constructor and destructor. -/
def withMutation (u : Bool) (h : Heap) (o : Nat) (t : TypeId) (steps : List (MStep × Bool)) : Res Heap :=
  match h.obj? o with
  | none => .ub
  | some ob =>
    let s := Sess.begin h o ob t
    if ob.isSealed then unwindWith D E orc s .isSealed
    else
      match allocateMixinData D E orc s with
      | .ub => .ub
      | .throw s e => unwindWith D E orc s e
      | .ok s => (msteps D E orc steps s).bind (Sess.dtor D E orc u) (unwindWith D E orc)

/-- `perform_object_mutation` (object_mutation.hpp 168-183). -/
def perform (u : Bool) (h : Heap) (o : Nat) (t : TypeId) (f : NewFn) (g : UpdFn) : Res Heap :=
  withMutation D E orc u h o t [(.each f g none, false)]

/-! ## object -/

/-- `clear_mixin_data` (object.cpp 295-301), with the "inverse" constructor (object_mutation.cpp 38-46). -/
def clearMixinData (h : Heap) (o : Nat) : Option Heap :=
  match h.obj? o with
  | none => none
  | some ob =>
    match ob.data, ob.ty with
    | none, _ => some h
    | some a, some t =>
      let n := (E.mixins t).length
      (rollback D E ⟨h, o, ob.alloc, none, none, t, some a, n, n, false, false⟩).map
        (fun s => s.h.setObj o (some { ob with data := none }))
    | some _, none => none

/-- The loop of `usurp` (object.cpp 309-311). -/
def redirect (o : Nat) (a : Nat) : Nat → Heap → Option Heap
  | 0, h => some h
  | i + 1, h =>
    match redirect o a i h with
    | none => none
    | some h => (h.slot? a i).map (fun sl => h.setOwner sl.loc o)

/-- `usurp` (object.cpp 303-316). -/
def usurp (h : Heap) (o src : Nat) : Option Heap :=
  match h.obj? o, h.obj? src with
  | some ob, some sb =>
    match sb.ty with
    | none => none
    | some t =>
      let h1 := h.setObj o (some { ob with ty := sb.ty, data := sb.data, isSealed := sb.isSealed })
      let h2 := match sb.data with
        | none => if (E.mixins t).length = 0 then some h1 else none
        | some a => redirect o a (E.mixins t).length h1
      h2.map (fun h => h.setObj src (some { sb with ty := some (E.emptyOf t), data := none }))
  | _, _ => none

/-- `reset_type` (object.cpp 242-254). -/
def resetType (u : Bool) (h : Heap) (o : Nat) (t : TypeId) : Res Heap :=
  match h.obj? o with
  | none => .ub
  | some ob =>
    if ob.isSealed then .throw h .isSealed
    else if ob.ty = some t then .ok h
    else if (E.mixins t).length = 0 then
      match clearMixinData D E h o with
      | none => .ub
      | some h =>
        match h.obj? o with
        | none => .ub
        | some ob => .ok (h.setObj o (some { ob with ty := some t }))
    else perform D E orc u h o t .dflt .noop

/-- A new object without type (`object(nullptr, alloc)`, object.cpp 37-40). Its number is the length of the list. -/
def newNull (h : Heap) (al : Nat) : Heap := { h with objs := h.objs ++ [some ⟨none, none, false, al⟩] }

/-- `~object` (object.cpp 42-44). -/
def destroyObject (h : Heap) (o : Nat) : Res Heap :=
  match clearMixinData D E h o with
  | none => .ub
  | some h => .ok (h.setObj o none)

/-- An exception in a constructor of `object` after delegation, or with a local object in scope: its destructor runs. -/
def unwindObject (o : Nat) (h : Heap) (e : XErr) : Res Heap :=
  (destroyObject D E h o).bind (fun h => .throw h e) (fun _ _ => .ub)

/-- `object(type, alloc, create_sealed)` (object.cpp 24-29). -/
def newOfType (u : Bool) (h : Heap) (t : TypeId) (al : Nat) (createSealed : Bool) : Res Heap :=
  let o := h.objs.length
  (resetType D E orc u (newNull h al) o t).bind
    (fun h => match h.obj? o with
      | none => .ub
      | some ob => .ok (h.setObj o (some { ob with isSealed := createSealed })))
    (unwindObject D E o)

/-- `object(object&&)` (object.cpp 31-35). -/
def moveConstruct (h : Heap) (src : Nat) : Res Heap :=
  match h.obj? src with
  | none => .ub
  | some sb =>
    match usurp E (newNull h sb.alloc) h.objs.length src with
    | none => .ub
    | some h => .ok h

/-- `operator=(object&&)` (object.cpp 46-57). -/
def moveAssign (h : Heap) (o src : Nat) : Res Heap :=
  if o = src then .ok h
  else
    match h.obj? o, h.obj? src with
    | some ob, some sb =>
      if ob.alloc = sb.alloc then
        if ob.isSealed then .throw h .isSealed
        else
          match (clearMixinData D E h o).bind (fun h => usurp E h o src) with
          | none => .ub
          | some h => .ok h
      else .throw h .allocMismatch
    | _, _ => .ub

/-- `copy` (object.cpp 68-87). -/
def copyObject (u : Bool) (h : Heap) (src : Nat) (al : Nat) : Res Heap :=
  match h.obj? src with
  | none => .ub
  | some sb =>
    let o := h.objs.length
    match sb.data, sb.ty with
    | none, _ => .ok ((newNull h al).setObj o (some ⟨sb.ty, none, false, al⟩))
    | some _, some t => (perform D E orc u (newNull h al) o t (.copy src true) .noop).bind .ok (unwindObject D E o)
    | some _, none => .ub

/-- The check of `copy_from` (object.cpp 100-109): the first mixin that cannot be copied. -/
def copyFromCheck (own : TypeId) : List Mix → Option Mix
  | [] => none
  | m :: ms =>
    if (E.indexOf own m).isSome then (if (D.mix m).hasCopyAsgn then copyFromCheck own ms else some m)
    else (if (D.mix m).hasCopyInit then copyFromCheck own ms else some m)

/-- `copy_from` (object.cpp 89-123). -/
def copyFrom (u : Bool) (h : Heap) (o src : Nat) : Res Heap :=
  match h.obj? o, h.obj? src with
  | some ob, some sb =>
    match sb.data, sb.ty, ob.ty with
    | none, ty, _ =>
      if ob.isSealed then .throw h .isSealed
      else
        match clearMixinData D E h o with
        | none => .ub
        | some h =>
          match h.obj? o with
          | none => .ub
          | some ob => .ok (h.setObj o (some { ob with ty := ty }))
    | some _, some t, some own =>
      match copyFromCheck D E own (E.mixins t) with
      | some m => .throw h (.missingFunc m)
      | none => perform D E orc u h o t (.copy src false) (.assign src)
    | _, _, _ => .ub
  | _, _ => .ub

/-- The check of `copy_matching_from` (object.cpp 129-135). -/
def copyMatchingCheck (own : TypeId) : List Mix → Option Mix
  | [] => none
  | m :: ms => if (E.indexOf own m).isSome ∧ (D.mix m).hasCopyAsgn = false then some m else copyMatchingCheck own ms

/-- The place and contents of mixin `i` of the buffer `b`. -/
def mixinAt (h : Heap) (b i : Nat) : Option (Loc × Mix × Nat) :=
  match h.slot? b i with
  | none => none
  | some sl => (h.live sl.loc).map (fun v => (sl.loc, v))

/-- The loop of `copy_matching_from` (object.cpp 140-149); `a`, `b`: own and other buffer. Null buffers are never accessed for types
without mixins. -/
def copyMatchingLoop (own : TypeId) (a b : Option Nat) : Nat → List Mix → Heap → Res Heap
  | _, [], h => .ok h
  | i, m :: ms, h =>
    match E.indexOf own m with
    | none => copyMatchingLoop own a b (i + 1) ms h
    | some oi =>
      match a.bind (fun a => mixinAt h a oi), b.bind (fun b => mixinAt h b i) with
      | some (l, m', _), some (sl, m'', v) =>
        if m' ≠ m ∨ m'' ≠ m ∨ (D.mix m).hasCopyAsgn = false then .ub
        else if orc.fail h.tick then
          .throw ((h.setLive l (some (m, orc.val h.tick))).ticked.logged (.copyAsgn m l sl)) (.user h.tick)
        else copyMatchingLoop own a b (i + 1) ms ((h.setLive l (some (m, v))).ticked.logged (.copyAsgn m l sl))
      | _, _ => .ub

/-- `copy_matching_from` (object.cpp 125-150). -/
def copyMatchingFrom (h : Heap) (o src : Nat) : Res Heap :=
  match h.obj? o, h.obj? src with
  | some ob, some sb =>
    match ob.ty, sb.ty with
    | some own, some t =>
      match copyMatchingCheck D E own (E.mixins t) with
      | some m => .throw h (.missingFunc m)
      | none => copyMatchingLoop D E orc own ob.data sb.data 0 (E.mixins t) h
    | _, _ => .ub
  | _, _ => .ub

/-- The check of `move_matching_from` (object.cpp 157-165). -/
def moveMatchingCheck (own : TypeId) (fallback : Bool) : List Mix → Option Mix
  | [] => none
  | m :: ms =>
    if (E.indexOf own m).isSome ∧ (D.mix m).hasMoveAsgn = false ∧ (fallback && (D.mix m).hasMoveInit) = false then some m
    else moveMatchingCheck own fallback ms

/-- The loop of `move_matching_from` (object.cpp 167-187). -/
def moveMatchingLoop (own : TypeId) (a b : Option Nat) : Nat → List Mix → Heap → Res Heap
  | _, [], h => .ok h
  | i, m :: ms, h =>
    match E.indexOf own m with
    | none => moveMatchingLoop own a b (i + 1) ms h
    | some oi =>
      match a.bind (fun a => mixinAt h a oi), b.bind (fun b => mixinAt h b i) with
      | some (l, m', _), some (sl, m'', v) =>
        if m' ≠ m ∨ m'' ≠ m then .ub
        else if (D.mix m).hasMoveAsgn then
          moveMatchingLoop own a b (i + 1) ms
            (((h.setLive l (some (m, v))).setLive sl (some (m, orc.val h.tick))).ticked.logged (.moveAsgn m l sl))
        else
          match h.destroy D l m with
          | none => .ub
          | some h =>
            match h.live sl with
            | none => .ub
            | some (_, v) =>
              if (D.mix m).hasMoveInit = false then .ub
              else
                match h.construct l m v (.moved sl) with
                | none => .ub
                | some h => moveMatchingLoop own a b (i + 1) ms ((h.setLive sl (some (m, orc.val h.tick))).ticked)
      | _, _ => .ub

/-- `move_matching_from` (object.cpp 152-188). -/
def moveMatchingFrom (h : Heap) (o src : Nat) (fallback : Bool) : Res Heap :=
  match h.obj? o, h.obj? src with
  | some ob, some sb =>
    match ob.ty, sb.ty with
    | some own, some t =>
      match moveMatchingCheck D E own fallback (E.mixins t) with
      | some m => .throw h (.missingFunc m)
      | none => moveMatchingLoop D E orc own ob.data sb.data 0 (E.mixins t) h
    | _, _ => .ub
  | _, _ => .ub

/-- `clear` (object.cpp 236-240). -/
def clearObject (h : Heap) (o : Nat) : Res Heap :=
  match h.obj? o with
  | none => .ub
  | some ob =>
    if ob.isSealed then .throw h .isSealed
    else
      match clearMixinData D E h o, ob.ty with
      | some h, some t =>
        match h.obj? o with
        | none => .ub
        | some ob => .ok (h.setObj o (some { ob with ty := some (E.emptyOf t) }))
      | _, _ => .ub

/-- `seal` (object.hpp 188). -/
def sealObject (h : Heap) (o : Nat) : Res Heap :=
  match h.obj? o with
  | none => .ub
  | some ob => .ok (h.setObj o (some { ob with isSealed := true }))

/-! ## Mutation functions -/

/-- An operation of `mutate_to` (object_mutate_ops.hpp 18-30): the affected mixin and its initializer. Operations that do not
override the initialization are filtered out right away and left out here. -/
abbrev InitOp := Mix × Nat

/-- The filter and sort of `mutate_to` (mutate_to.hpp 33-45): the operations with their index in the type, sorted by it. -/
def sortedOps (t : TypeId) (ops : List InitOp) : List (Nat × Nat) :=
  sortBy (fun a b => decide (a.1 < b.1)) (ops.filterMap (fun (m, k) => (E.indexOf t m).map (fun i => (i, k))))

/-- The loop of `mutate_to` (mutate_to.hpp 49-55). -/
def mutateToSteps (l : List (Nat × Nat)) : List (MStep × Bool) :=
  l.flatMap (fun (i, k) => [(.each .dflt .noop (some i), false), (.next (.custom k) .noop, false)])

/-- `mutate_to` with operations (mutate_to.hpp 16-56). -/
def mutateTo (u : Bool) (h : Heap) (o : Nat) (t : TypeId) (ops : List InitOp) : Res Heap :=
  match h.obj? o with
  | none => .ub
  | some ob =>
    if ob.ty = some t then .ok h
    else withMutation D E orc u h o t (mutateToSteps (sortedOps E t ops))

/-- An override of `dnmx_mutate_to` (mutate-c.cpp 22-68): mixin, and functions if not null. -/
structure COverride where
  mixin : Mix
  initNew : Option Nat
  updateCommon : Option Nat

/-- The loop of `dnmx_mutate_to` (mutate-c.cpp 28-60), from index `i` on. Simplification: overrides by name are resolved. -/
def cMutateSteps (ovs : List COverride) : Nat → List Mix → List (MStep × Bool)
  | _, [] => []
  | i, m :: ms =>
    match ovs.find? (fun ov => ov.mixin = m) with
    | none => cMutateSteps ovs (i + 1) ms
    | some ov =>
      (.at i (ov.initNew.elim .dflt .custom) (ov.updateCommon.elim .noop .custom), false) :: cMutateSteps ovs (i + 1) ms

/-- `dnmx_mutate_to` (mutate-c.cpp 22-68) and the object part of `dnmx_mutate` (95-118). The C function reports exceptions as -1. -/
def cMutateTo (u : Bool) (h : Heap) (o : Nat) (t : TypeId) (ovs : List COverride) : Res Heap :=
  withMutation D E orc u h o t (cMutateSteps ovs 0 (E.mixins t))

/-! ## Programs -/

/-- Operations on objects; objects are numbered in the order of their creation. -/
inductive OOp
  | newEmpty (t : TypeId) (al : Nat)
  | newOfType (t : TypeId) (al : Nat) (createSealed : Bool)
  | moveNew (src : Nat)
  | destroy (o : Nat)
  | moveAssign (o src : Nat)
  | copy (src : Nat) (al : Nat)
  | copyFrom (o src : Nat)
  | copyMatching (o src : Nat)
  | moveMatching (o src : Nat) (fallback : Bool)
  | clear (o : Nat)
  | reset (o : Nat) (t : TypeId)
  | seal (o : Nat)
  | mutation (o : Nat) (t : TypeId) (steps : List (MStep × Bool))
  | mutateTo (o : Nat) (t : TypeId) (ops : List InitOp)

/-- One operation; `u`: it happens while an exception is being handled by unwinding (in a destructor). `newEmpty` is
`object(domain)` (object.cpp 13-16) for the domain of `t`. -/
def ostep (u : Bool) (h : Heap) : OOp → Res Heap
  | .newEmpty t al => .ok { h with objs := h.objs ++ [some ⟨some (E.emptyOf t), none, false, al⟩] }
  | .newOfType t al sd => newOfType D E orc u h t al sd
  | .moveNew src => moveConstruct E h src
  | .destroy o => destroyObject D E h o
  | .moveAssign o src => moveAssign D E h o src
  | .copy src al => copyObject D E orc u h src al
  | .copyFrom o src => copyFrom D E orc u h o src
  | .copyMatching o src => copyMatchingFrom D E orc h o src
  | .moveMatching o src fb => moveMatchingFrom D E orc h o src fb
  | .clear o => clearObject D E h o
  | .reset o t => resetType D E orc u h o t
  | .seal o => sealObject h o
  | .mutation o t steps => withMutation D E orc u h o t steps
  | .mutateTo o t ops => mutateTo D E orc u h o t ops

/-- A program: operations one after the other; exceptions are caught between them. `none`: undefined behaviour. -/
def orun : List (Bool × OOp) → Heap → Option Heap
  | [], h => some h
  | (u, op) :: ops, h =>
    match ostep D E orc u h op with
    | .ok h => orun ops h
    | .throw h _ => orun ops h
    | .ub => none

end

end Dnmx
