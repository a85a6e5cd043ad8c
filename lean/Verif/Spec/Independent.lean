import Verif.Spec.Heap

/-!
# Vocabulary for the independence of objects (C77)

Programs, each with its own objects, are executed together, in any interleaving of their calls. A program numbers its own objects in
the order of their creation. What the outside world (allocators, functions of mixins) does is given for each call.
-/

namespace Spec
open Dnmx

/-- A call of an operation on objects: what the outside world does at its n-th call during this operation, whether it happens during
stack unwinding, and the operation. -/
structure Call where
  world : Orc
  unwinding : Bool
  op : OOp

/-- The oracle that starts at time `t`. -/
def startingAt (w : Orc) (t : Nat) : Orc := ⟨fun n => w.fail (n - t), fun n => w.val (n - t)⟩

/-- A call is executed. -/
def exec (D : Decls) (E : TyEnv) (h : Heap) (c : Call) : Res Heap := ostep D E (startingAt c.world h.tick) c.unwinding h c.op

/-- The number of a failed call of the outside world, counted from time `t`. -/
def errorSince (t : Nat) : XErr → XErr
  | .user n => .user (n - t)
  | e => e

/-- How something was made, without addresses. -/
def howSeen : How → How
  | .copied l => .copied (0, l.2)
  | .moved l => .moved (0, l.2)
  | k => k

/-- An event, without addresses. -/
def eventSeen : Ev → Ev
  | .alloc _ b => .alloc 0 b
  | .dealloc _ => .dealloc 0
  | .init m l k => .init m (0, l.2) (howSeen k)
  | .destroy m l => .destroy m (0, l.2)
  | .update m l k => .update m (0, l.2) k
  | .copyAsgn m l s => .copyAsgn m (0, l.2) (0, s.2)
  | .moveAsgn m l s => .moveAsgn m (0, l.2) (0, s.2)
  | .assertFailed => .assertFailed

/-- What the caller sees of a call: the exception, if there was one, and the functions that were called during it. -/
structure Outcome where
  exc : Option XErr
  seen : List Ev
deriving DecidableEq, Repr

def outcomeOf (h : Heap) (e : Option XErr) (h' : Heap) : Outcome := ⟨e.map (errorSince h.tick), (h'.log.drop h.log.length).map eventSeen⟩

/-- A program alone. `none`: undefined behaviour. -/
def execAll (D : Decls) (E : TyEnv) : List Call → Heap → Option (List Outcome × Heap)
  | [], h => some ([], h)
  | c :: cs, h =>
    match exec D E h c with
    | .ok h' => (execAll D E cs h').map (fun r => (outcomeOf h none h' :: r.1, r.2))
    | .throw h' e => (execAll D E cs h').map (fun r => (outcomeOf h (some e) h' :: r.1, r.2))
    | .ub => none

/-- Does the operation make a new object? -/
def addsObject : OOp → Bool
  | .newEmpty _ _ | .newOfType _ _ _ | .moveNew _ | .copy _ _ => true
  | _ => false

/-- Functions for mixins with other numbers of objects. -/
def renNew (σ : Nat → Nat) : NewFn → NewFn
  | .copy src c => .copy (σ src) c
  | f => f

def renUpd (σ : Nat → Nat) : UpdFn → UpdFn
  | .assign src => .assign (σ src)
  | g => g

def renStep (σ : Nat → Nat) : MStep → MStep
  | .next f g => .next (renNew σ f) (renUpd σ g)
  | .each f g u => .each (renNew σ f) (renUpd σ g) u
  | .at i f g => .at i (renNew σ f) (renUpd σ g)
  | st => st

/-- An operation with other numbers of objects. -/
def renOp (σ : Nat → Nat) : OOp → OOp
  | .newEmpty t al => .newEmpty t al
  | .newOfType t al s => .newOfType t al s
  | .moveNew src => .moveNew (σ src)
  | .destroy o => .destroy (σ o)
  | .moveAssign o src => .moveAssign (σ o) (σ src)
  | .copy src al => .copy (σ src) al
  | .copyFrom o src => .copyFrom (σ o) (σ src)
  | .copyMatching o src => .copyMatching (σ o) (σ src)
  | .moveMatching o src fb => .moveMatching (σ o) (σ src) fb
  | .clear o => .clear (σ o)
  | .reset o t => .reset (σ o) t
  | .seal o => .seal (σ o)
  | .mutation o t steps => .mutation (σ o) t (steps.map (fun x => (renStep σ x.1, x.2)))
  | .mutateTo o t ops => .mutateTo (σ o) t ops

/-- The numbers that the objects of a program have when it runs together with others. -/
def numberIn (l : List Nat) (o : Nat) : Nat := (l[o]?).getD 0

/-- Programs run together: each call says which program it belongs to; `N p` are the numbers of the objects of program `p`. -/
def execTogether (D : Decls) (E : TyEnv) : List (Nat × Call) → (Nat → List Nat) → Heap → Option (List (Nat × Outcome) × (Nat → List Nat) × Heap)
  | [], N, h => some ([], N, h)
  | (p, c) :: cs, N, h =>
    let N' := if addsObject c.op then fun q => if q = p then N p ++ [h.objs.length] else N q else N
    match exec D E h { c with op := renOp (numberIn (N p)) c.op } with
    | .ok h' => (execTogether D E cs N' h').map (fun r => ((p, outcomeOf h none h') :: r.1, r.2))
    | .throw h' e => (execTogether D E cs N' h').map (fun r => ((p, outcomeOf h (some e) h') :: r.1, r.2))
    | .ub => none

/-- The calls (or outcomes) of one program. -/
def ownOf (p : Nat) (l : List (Nat × α)) : List α := l.filterMap (fun x => if x.1 = p then some x.2 else none)

/-- Object `o` in heap `h` and object `o'` in heap `h'` are the same, up to addresses: type, seal, allocator, mixins with their values
in their order, and whether the back pointers of the mixins (`object_of`) lead to the object. -/
structure SameObject (E : TyEnv) (h : Heap) (o : Nat) (h' : Heap) (o' : Nat) : Prop where
  there : (h'.obj? o').isSome = (h.obj? o).isSome
  fields : ∀ ob ob', h.obj? o = some ob → h'.obj? o' = some ob' → ob'.ty = ob.ty ∧ ob'.isSealed = ob.isSealed ∧ ob'.alloc = ob.alloc ∧ ob'.data.isSome = ob.data.isSome
  mixins : ∀ m v, (∃ l, Holds E h' o' m l v) ↔ (∃ l, Holds E h o m l v)
  order : ∀ (i : Nat) (m : Mix) (v : Nat), (∃ sl, SlotOf E h' o' i m sl ∧ h'.live sl.loc = some (m, v)) ↔ (∃ sl, SlotOf E h o i m sl ∧ h.live sl.loc = some (m, v))
  back : ∀ (i : Nat) (m : Mix), (∃ sl, SlotOf E h' o' i m sl ∧ h'.owner sl.loc = some o') ↔ (∃ sl, SlotOf E h o i m sl ∧ h.owner sl.loc = some o)

end Spec
