import Verif.Model.Object

/-!
# Specification: healthy heaps

What it means that all memory and all living mixins belong to objects in the right way.
-/

namespace Spec
open Dnmx

/-- The types are proper: no duplicate mixins, mixins are found at their index, internal mixins are those that need no
separate buffer, and there is an empty type. -/
structure EnvOk (D : Decls) (E : TyEnv) : Prop where
  nodup : ∀ t, (E.mixins t).Nodup
  index : ∀ t u m i, m ∈ E.mixins u → (E.indexOf t m = some i ↔ (E.mixins t)[i]? = some m)
  internal : ∀ t i m, (E.mixins t)[i]? = some m → E.internal t i = !(D.mix m).external
  empty : ∀ t, E.mixins (E.emptyOf t) = []

/-- The mixin data `sl` designate a place in the unified buffer `a`, or a separate buffer that was allocated for mixin
`m` by the right allocator. -/
def PlaceOk (D : Decls) (E : TyEnv) (blk : Nat → Option Blk) (al : Nat) (t : TypeId) (a i : Nat) (m : Mix) (sl : Slot) : Prop :=
  if E.internal t i then sl = ⟨none, (a, i)⟩ else ∃ e, sl = ⟨some e, (e, 0)⟩ ∧ blk e = some (provenance D m al)

/-- Mixin `m` with index `i` of object `o` lives at its place and knows its object. -/
def MixinOk (D : Decls) (E : TyEnv) (h : Heap) (o al : Nat) (t : TypeId) (a i : Nat) (m : Mix) : Prop :=
  ∃ sl v, h.slot a i = some sl ∧ PlaceOk D E h.blk al t a i m sl ∧ h.live sl.loc = some (m, v) ∧ h.owner sl.loc = some o

/-- An object without buffer has no mixins; otherwise it has a buffer for its type, allocated by its allocator,
and all mixins of its type. -/
def ObjOk (D : Decls) (E : TyEnv) (h : Heap) (o : Nat) (ob : Obj) : Prop :=
  match ob.data with
  | none => ∀ t, ob.ty = some t → E.mixins t = []
  | some a => ∃ t, ob.ty = some t ∧ E.mixins t ≠ [] ∧ h.blk a = some (.unified t ob.alloc) ∧
      ∀ (i : Nat) (m : Mix), (E.mixins t)[i]? = some m → MixinOk D E h o ob.alloc t a i m

/-- `sl` are mixin data of object `o`. -/
def SlotOf (E : TyEnv) (h : Heap) (o : Nat) (i : Nat) (m : Mix) (sl : Slot) : Prop :=
  ∃ ob t a, h.obj? o = some ob ∧ ob.ty = some t ∧ ob.data = some a ∧ (E.mixins t)[i]? = some m ∧ h.slot a i = some sl

/-- The number of living objects that have a buffer of type `t`. -/
def usersOf (h : Heap) (t : TypeId) : Nat :=
  h.objs.countP (fun x => match x with
    | some ob => ob.ty == some t && ob.data.isSome
    | none => false)

/-- All objects are well, no memory and no mixin is lost, and types count their objects. -/
structure HeapOk (D : Decls) (E : TyEnv) (h : Heap) : Prop where
  objs : ∀ o ob, h.obj? o = some ob → ObjOk D E h o ob
  blocks : ∀ a b, h.blk a = some b → ∃ o, (∃ ob, h.obj? o = some ob ∧ ob.data = some a) ∨ ∃ i m sl, SlotOf E h o i m sl ∧ sl.buf = some a
  lives : ∀ l x, h.live l = some x → ∃ o i m sl, SlotOf E h o i m sl ∧ sl.loc = l
  fresh : ∀ a b, h.blk a = some b → a < h.next
  counts : ∀ t, h.count t = usersOf h t

/-- Object `o` has mixin `m`, at address `l`, with value `v`. -/
def Holds (E : TyEnv) (h : Heap) (o : Nat) (m : Mix) (l : Loc) (v : Nat) : Prop :=
  ∃ i sl, SlotOf E h o i m sl ∧ sl.loc = l ∧ h.live l = some (m, v)

/-- The mixins that an object should have: those of its type. -/
def ownMixins (E : TyEnv) (ob : Obj) : List Mix := ob.ty.elim [] E.mixins

/-- Where the data of mixin `m` are in the buffer of an object. -/
def mixinIndex (E : TyEnv) (ob : Obj) (m : Mix) : Option (Nat × Nat) :=
  match ob.data, ob.ty with
  | some b, some t => (E.indexOf t m).map (fun i => (b, i))
  | _, _ => none

/-- The ways of making a new mixin. -/
inductive Kind
  | dflt
  | custom (k : Nat)
  | copied
deriving DecidableEq, Repr

def kindOf : NewFn → Kind
  | .dflt => .dflt
  | .custom k => .custom k
  | .copy _ _ => .copied

/-- The calls of initialization functions (other than moves). -/
def initOf : Ev → Option (Mix × Loc × Kind)
  | .init m l .dflt => some (m, l, .dflt)
  | .init m l (.custom k) => some (m, l, .custom k)
  | .init m l (.copied _) => some (m, l, .copied)
  | _ => none

/-- The calls of destructors. -/
def destroyOf : Ev → Option (Mix × Loc)
  | .destroy m l => some (m, l)
  | _ => none

/-- The calls of initialization functions and destructors in a log. -/
def initsOf (l : List Ev) : List (Mix × Loc × Kind) := l.filterMap initOf
def destroysOf (l : List Ev) : List (Mix × Loc) := l.filterMap destroyOf

/-- How often mixin `m` was constructed at `l`, by whichever function. -/
def births (m : Mix) (l : Loc) (log : List Ev) : Nat := log.countP (fun e => match e with
  | .init m' l' _ => m' == m && l' == l
  | _ => false)

/-- How often the destructor of mixin `m` was called for `l`. -/
def deaths (m : Mix) (l : Loc) (log : List Ev) : Nat := log.countP (fun e => match e with
  | .destroy m' l' => m' == m && l' == l
  | _ => false)

/-- How often the memory at `a` was allocated and given back. -/
def allocs (a : Nat) (log : List Ev) : Nat := log.countP (fun e => match e with
  | .alloc a' _ => a' == a
  | _ => false)

def deallocs (a : Nat) (log : List Ev) : Nat := log.countP (fun e => match e with
  | .dealloc a' => a' == a
  | _ => false)

/-- The function that was called exists. (Calls of functions that are null would be undefined.) -/
def FuncThere (D : Decls) : Ev → Prop
  | .init m _ .dflt => (D.mix m).hasInit = true
  | .init m _ (.copied _) => (D.mix m).hasCopyInit = true
  | .init m _ (.moved _) => (D.mix m).hasMoveInit = true
  | .destroy m _ => (D.mix m).hasDestroy = true
  | .copyAsgn m _ _ => (D.mix m).hasCopyAsgn = true
  | .moveAsgn m _ _ => (D.mix m).hasMoveAsgn = true
  | _ => True

/-- The log agrees with what lives: constructions and destructions of mixins (that have a destructor) are balanced apart from those
that live, and so are allocations apart from those in use. Only functions that exist were called. -/
structure LogOk (D : Decls) (h : Heap) : Prop where
  lives : ∀ m l, (D.mix m).hasDestroy = true → births m l h.log = deaths m l h.log + (if (h.live l).map Prod.fst = some m then 1 else 0)
  blocks : ∀ a, allocs a h.log = deallocs a h.log + (if (h.blk a).isSome then 1 else 0)
  fresh : ∀ a, h.next ≤ a → h.blk a = none ∧ allocs a h.log = 0
  once : ∀ a, allocs a h.log ≤ 1
  funcs : ∀ e ∈ h.log, FuncThere D e

/-- All objects are what they were, with the same mixins at the same addresses with the same values; the same memory is in use and
types have the same object counts; whatever was constructed since has been destroyed, in reverse order. -/
structure Untouched (D : Decls) (E : TyEnv) (h h' : Heap) : Prop where
  objs : ∀ o, h'.obj? o = h.obj? o
  holds : ∀ o m l v, Holds E h' o m l v ↔ Holds E h o m l v
  blocks : ∀ a, h'.blk a = h.blk a
  counts : ∀ t, h'.count t = h.count t
  log : ∃ l : List (Mix × Loc × Kind), initsOf h'.log = initsOf h.log ++ l ∧
    destroysOf h'.log = destroysOf h.log ++ ((l.filter (fun x => (D.mix x.1).hasDestroy)).map (fun x => (x.1, x.2.1))).reverse

/-- The same, apart from the values of mixins of object `o`. -/
structure UntouchedBut (D : Decls) (E : TyEnv) (o : Nat) (h h' : Heap) : Prop where
  objs : ∀ o', h'.obj? o' = h.obj? o'
  places : ∀ m l, (∃ v, Holds E h' o m l v) ↔ ∃ v, Holds E h o m l v
  others : ∀ o' m l v, o' ≠ o → (Holds E h' o' m l v ↔ Holds E h o' m l v)
  blocks : ∀ a, h'.blk a = h.blk a
  counts : ∀ t, h'.count t = h.count t
  log : ∃ l : List (Mix × Loc × Kind), initsOf h'.log = initsOf h.log ++ l ∧
    destroysOf h'.log = destroysOf h.log ++ ((l.filter (fun x => (D.mix x.1).hasDestroy)).map (fun x => (x.1, x.2.1))).reverse

/-- Object `o`, which was `ob`, has been changed to type `t`. New mixins are made in the order of the type, each once, in the ways given
by `kind`. Destroyed are, each once: those that are not in the target type, and the originals of those that had to be moved to the new
buffer. `keeps m`: the value of common mixin `m` is not changed. -/
structure Mutated (D : Decls) (E : TyEnv) (h : Heap) (o : Nat) (ob : Obj) (t : TypeId) (kind : Mix → Kind → Prop) (keeps : Mix → Prop) (h' : Heap) : Prop where
  obj : ∃ a, h.blk a = none ∧ h'.obj? o = some { ob with ty := some t, data := some a }
  otherObjs : ∀ o', o' ≠ o → h'.obj? o' = h.obj? o'
  others : ∀ o' m l v, o' ≠ o → (Holds E h' o' m l v ↔ Holds E h o' m l v)
  mixins : ∀ m, (∃ l v, Holds E h' o m l v) ↔ m ∈ E.mixins t
  common : ∀ m l v, m ∈ E.mixins t → Holds E h o m l v → ∃ l' v', Holds E h' o m l' v' ∧ ((D.mix m).external = true → l' = l) ∧ (keeps m → v' = v)
  inits : ∃ l, initsOf h'.log = initsOf h.log ++ l ∧ l.map Prod.fst = (E.mixins t).filter (fun m => decide (m ∉ ownMixins E ob)) ∧
    ∀ m p k, (m, p, k) ∈ l → (∃ v, Holds E h' o m p v) ∧ kind m k
  destroys : ∃ d, destroysOf h'.log = destroysOf h.log ++ d ∧
    d.map Prod.fst = (ownMixins E ob).filter (fun m => (D.mix m).hasDestroy && decide (m ∉ E.mixins t ∨ (D.mix m).external = false)) ∧
    ∀ m p, (m, p) ∈ d → ∃ v, Holds E h o m p v
  counts : ∀ x, h'.count x = usersOf h' x
  healthy : HeapOk D E h'

/-- A new object (with the next number) of type `t` has been made: it has all mixins of the type, in new memory, each made by its
default function, once, in order. Nothing else changed. -/
structure Made (D : Decls) (E : TyEnv) (h : Heap) (t : TypeId) (al : Nat) (sd : Bool) (h' : Heap) : Prop where
  target : ∃ a, h'.obj? h.objs.length = some ⟨some t, a, sd, al⟩
  mixins : ∀ m, (∃ l v, Holds E h' h.objs.length m l v) ↔ m ∈ E.mixins t
  otherObjs : ∀ o', o' ≠ h.objs.length → h'.obj? o' = h.obj? o'
  others : ∀ o' m l v, o' ≠ h.objs.length → (Holds E h' o' m l v ↔ Holds E h o' m l v)
  inits : ∃ l, initsOf h'.log = initsOf h.log ++ l ∧ l.map Prod.fst = E.mixins t ∧ ∀ m p k, (m, p, k) ∈ l → k = .dflt ∧ ∃ v, Holds E h' h.objs.length m p v
  destroys : destroysOf h'.log = destroysOf h.log
  healthy : HeapOk D E h'

/-- All mixins of object `o`, which was `ob`, were destroyed, each once, in reverse order; no other functions were called to make or destroy mixins. -/
def AllDestroyed (D : Decls) (E : TyEnv) (h : Heap) (o : Nat) (ob : Obj) (h' : Heap) : Prop :=
  initsOf h'.log = initsOf h.log ∧ ∃ d, destroysOf h'.log = destroysOf h.log ++ d ∧
    d.map Prod.fst = ((ownMixins E ob).filter (fun m => (D.mix m).hasDestroy)).reverse ∧ ∀ m p, (m, p) ∈ d → ∃ v, Holds E h o m p v

/-- Object `src`, which was `sb`, has been moved to object `o` with allocator `al`: that has now the type, the mixins (at the same addresses, with the
same values) and the sealed status of the source, and the source is empty. -/
structure Moved (E : TyEnv) (h : Heap) (o src : Nat) (sb : Obj) (al : Nat) (h' : Heap) : Prop where
  target : h'.obj? o = some { sb with alloc := al }
  targetHolds : ∀ m l v, Holds E h' o m l v ↔ Holds E h src m l v
  targetOwner : ∀ m l v, Holds E h' o m l v → h'.owner l = some o
  source : ∃ e, E.mixins e = [] ∧ h'.obj? src = some ⟨some e, none, sb.isSealed, sb.alloc⟩
  sourceHolds : ∀ m l v, ¬ Holds E h' src m l v
  otherObjs : ∀ o', o' ≠ o → o' ≠ src → h'.obj? o' = h.obj? o'
  others : ∀ o' m l v, o' ≠ o → o' ≠ src → (Holds E h' o' m l v ↔ Holds E h o' m l v)

/-- A new object (with the next number) is a copy of `src`, which was `sb`: same type, same values, in new memory; its mixins were
made by copying, in order, once each. Nothing else changed. -/
structure Copied (D : Decls) (E : TyEnv) (h : Heap) (src : Nat) (sb : Obj) (al : Nat) (h' : Heap) : Prop where
  target : ∃ a, h'.obj? h.objs.length = some ⟨sb.ty, a, false, al⟩
  values : ∀ m v, (∃ l, Holds E h' h.objs.length m l v) ↔ ∃ l, Holds E h src m l v
  storage : ∀ m l v, Holds E h' h.objs.length m l v → h.blk l.1 = none
  otherObjs : ∀ o', o' ≠ h.objs.length → h'.obj? o' = h.obj? o'
  others : ∀ o' m l v, o' ≠ h.objs.length → (Holds E h' o' m l v ↔ Holds E h o' m l v)
  inits : ∃ l, initsOf h'.log = initsOf h.log ++ l ∧ l.map Prod.fst = ownMixins E sb ∧ ∀ x ∈ l, x.2.2 = .copied
  destroys : destroysOf h'.log = destroysOf h.log
  healthy : HeapOk D E h'

/-- Object `o`, which was `ob`, has now the type and the values of `src`, which was `sb` and is unchanged. -/
structure CopiedOver (D : Decls) (E : TyEnv) (h : Heap) (o : Nat) (ob : Obj) (src : Nat) (sb : Obj) (h' : Heap) : Prop where
  target : ∃ a, h'.obj? o = some { ob with ty := sb.ty, data := a }
  values : ∀ m v, (∃ l, Holds E h' o m l v) ↔ ∃ l, Holds E h src m l v
  otherObjs : ∀ o', o' ≠ o → h'.obj? o' = h.obj? o'
  others : ∀ o' m l v, o' ≠ o → (Holds E h' o' m l v ↔ Holds E h o' m l v)
  healthy : HeapOk D E h'

/-- The mixins of object `o` that `src` has too, as far as their position in the type `t` of `src` is less than `k`, have the values of the source; those
for which it is greater, and those that `src` does not have, are as they were. (The one at position `k` may have any value: copying it failed.) -/
def CopyStopped (E : TyEnv) (h : Heap) (o src : Nat) (t : TypeId) (k : Nat) (h' : Heap) : Prop :=
  ∀ m l v, Holds E h o m l v →
    (∀ j, (E.mixins t)[j]? = some m → j < k → ∃ x w, Holds E h src m x w ∧ Holds E h' o m l w) ∧
    ((∀ j, (E.mixins t)[j]? = some m → k < j) → Holds E h' o m l v)

/-- The values of the mixins that `o` and `src` have in common are now, in `o`, those that they were in `src`. Everything else is as it was. -/
structure CommonCopied (E : TyEnv) (h : Heap) (o src : Nat) (h' : Heap) : Prop where
  objs : ∀ o', h'.obj? o' = h.obj? o'
  places : ∀ m l, (∃ v, Holds E h' o m l v) ↔ ∃ v, Holds E h o m l v
  common : ∀ m l v x w, Holds E h o m l v → Holds E h src m x w → Holds E h' o m l w
  rest : ∀ m l v, Holds E h o m l v → (∀ x w, ¬ Holds E h src m x w) → Holds E h' o m l v
  others : ∀ o' m l v, o' ≠ o → (Holds E h' o' m l v ↔ Holds E h o' m l v)
  blocks : ∀ a, h'.blk a = h.blk a
  counts : ∀ t, h'.count t = h.count t
  inits : initsOf h'.log = initsOf h.log
  destroys : destroysOf h'.log = destroysOf h.log

/-- The same for moves. The mixins of the source that `o` has too are still there, with unknown values. -/
structure CommonMoved (E : TyEnv) (h : Heap) (o src : Nat) (h' : Heap) : Prop where
  objs : ∀ o', h'.obj? o' = h.obj? o'
  places : ∀ o' m l, (∃ v, Holds E h' o' m l v) ↔ ∃ v, Holds E h o' m l v
  common : ∀ m l v x w, Holds E h o m l v → Holds E h src m x w → Holds E h' o m l w
  rest : ∀ m l v, Holds E h o m l v → (∀ x w, ¬ Holds E h src m x w) → Holds E h' o m l v
  sourceRest : ∀ m x w, Holds E h src m x w → (∀ l v, ¬ Holds E h o m l v) → Holds E h' src m x w
  others : ∀ o' m l v, o' ≠ o → o' ≠ src → (Holds E h' o' m l v ↔ Holds E h o' m l v)
  blocks : ∀ a, h'.blk a = h.blk a
  counts : ∀ t, h'.count t = h.count t

/-- Every object has a type. -/
def AllTyped (h : Heap) : Prop := ∀ o ob, h.obj? o = some ob → ob.ty ≠ none

end Spec
