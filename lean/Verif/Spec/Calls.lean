import Verif.Model.Calls
import Verif.Spec.Programs

/-!
# Specification: what functions of mixins see of their object

Which mixins of which objects can be used while a function of a mixin (a constructor, a destructor) runs in the middle of an
operation.
-/

namespace Spec
open Dnmx

/-- Through object `o`, mixin `m`, which is number `i` in the type of the object, is found at `l`, and it is alive: the object is there, it has
a type and a buffer, the buffer and the mixin's memory are allocated, and the mixin lives. -/
def ReachedAt (E : TyEnv) (h : Heap) (o i : Nat) (m : Mix) (l : Loc) : Prop :=
  ∃ ob t a sl v, h.obj? o = some ob ∧ ob.ty = some t ∧ ob.data = some a ∧ (E.mixins t)[i]? = some m ∧ (h.blk a).isSome = true ∧
    h.slot a i = some sl ∧ sl.loc = l ∧ (h.blk l.1).isSome = true ∧ h.live l = some (m, v)

/-- In `h'`, all objects are what they were in `h`, and all of their mixins can be used, except that of the mixins of `o` only those can be used for
which `still` holds (of the number in the type and the mixin). -/
structure Sees (E : TyEnv) (h h' : Heap) (o : Nat) (still : Nat → Mix → Prop) : Prop where
  objs : ∀ o', h'.obj? o' = h.obj? o'
  mixins : ∀ o' i m l, ReachedAt E h' o' i m l ↔ ReachedAt E h o' i m l ∧ (o' = o → still i m)

/-- The calls in a mutation of `o` to type `t` that began with `h`. New mixins are made, and destroyed again if the mutation fails, in
new memory, while all old ones can be used; the old ones are then moved or destroyed one by one, in their order: external ones that stay can be used
all the time, others until it is their turn. -/
def InMutation (D : Decls) (E : TyEnv) (h : Heap) (o : Nat) (t : TypeId) (c : MixinCall) (h' : Heap) : Prop :=
  (∃ m l, (c = .init m l ∨ c = .destroy m l) ∧ h.blk l.1 = none ∧ Sees E h h' o (fun _ _ => True)) ∨
  (∃ k m l, ReachedAt E h o k m l ∧ (c = .destroy m l ∨ ∃ l', h.blk l'.1 = none ∧ c = .move m l' l) ∧
    Sees E h h' o (fun i m' => k ≤ i ∨ ((D.mix m').external = true ∧ m' ∈ E.mixins t)))

/-- The calls when all mixins of `o` are destroyed: a destructor can use the mixin itself and those before it in the type. -/
def InClear (E : TyEnv) (h : Heap) (o : Nat) (c : MixinCall) (h' : Heap) : Prop :=
  ∃ k m l, ReachedAt E h o k m l ∧ c = .destroy m l ∧ Sees E h h' o (fun i _ => i ≤ k)

/-- The calls when mixins of `o` are replaced one by one: all others can be used. -/
def InMatching (E : TyEnv) (h : Heap) (o : Nat) (c : MixinCall) (h' : Heap) : Prop :=
  ∃ k m l, ReachedAt E h o k m l ∧
    ((c = .destroy m l ∧ Sees E h h' o (fun _ _ => True)) ∨ (∃ src, c = .move m l src ∧ Sees E h h' o (fun i _ => i ≠ k)))

/-- The object whose mixins are made or destroyed by an operation. -/
def handled (h : Heap) : OOp → Nat
  | .newEmpty _ _ => h.objs.length
  | .newOfType _ _ _ => h.objs.length
  | .moveNew _ => h.objs.length
  | .destroy o => o
  | .moveAssign o _ => o
  | .copy _ _ => h.objs.length
  | .copyFrom o _ => o
  | .copyMatching o _ => o
  | .moveMatching o _ _ => o
  | .clear o => o
  | .reset o _ => o
  | .seal o => o
  | .mutation o _ _ => o
  | .mutateTo o _ _ => o

/-- The heap with which an operation begins: with the new object, without type, if there is one. -/
def begun (h : Heap) : OOp → Heap
  | .newOfType _ al _ => newNull h al
  | .copy _ al => newNull h al
  | _ => h

/-- What a call in an operation sees. -/
def InOp (D : Decls) (E : TyEnv) (h : Heap) : OOp → MixinCall → Heap → Prop
  | .newOfType t al _, c, h' => InMutation D E (newNull h al) h.objs.length t c h'
  | .destroy o, c, h' => InClear E h o c h'
  | .moveAssign o _, c, h' => InClear E h o c h'
  | .copy src al, c, h' => ∃ sb t, h.obj? src = some sb ∧ sb.ty = some t ∧ InMutation D E (newNull h al) h.objs.length t c h'
  | .copyFrom o src, c, h' => ∃ sb t, h.obj? src = some sb ∧ sb.ty = some t ∧
      if E.mixins t = [] then InClear E h o c h' else InMutation D E h o t c h'
  | .moveMatching o _ _, c, h' => InMatching E h o c h'
  | .clear o, c, h' => InClear E h o c h'
  | .reset o t, c, h' => if E.mixins t = [] then InClear E h o c h' else InMutation D E h o t c h'
  | .mutation o t _, c, h' => InMutation D E h o t c h'
  | .mutateTo o t _, c, h' => InMutation D E h o t c h'
  | _, _, _ => False

/-- The calls that an event of the log stands for. -/
def callOf : Ev → Option MixinCall
  | .init m l (.moved src) => some (.move m l src)
  | .init m l _ => some (.init m l)
  | .destroy m l => some (.destroy m l)
  | _ => none

/-- `calls` explains what happened from `h` to `h'`: for each call in the log there is one in `calls`, with the heap at that time. -/
def Explains (calls : Seen) (h h' : Heap) : Prop :=
  ∃ g, h'.log = h.log ++ g ∧ ∀ g1 e g2 c, g = g1 ++ e :: g2 → callOf e = some c → ∃ h1, (c, h1) ∈ calls ∧ h1.log = h.log ++ g1

end Spec
