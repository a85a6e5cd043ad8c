import Verif.Model.Dispatch
import Verif.Model.Object

/-!
# Implementations of messages that act on objects

Model of calls of messages (code/dynamix/msg/msg_caller.hpp, code/dynamix/msg/next_impl.hpp, code/dynamix/object_of.hpp) for objects in
memory, with implementations that use their own mixin, operate on objects, and call messages and next implementations themselves.

In contrast to `Model.Dispatch`, where implementations are arbitrary functions, an implementation is here a list of actions, so that it can be said
when an action uses something that is no longer there.

Simplifications: an implementation does the same whenever it is called (arguments and branches are not modelled); the types of the domain and
their tables stay as they are; calls happen outside of stack unwinding. Implementations can call each other without end, so the number of actions
is limited by a parameter (`Out.more`: not finished within the limit); the theorems are about all limits.
-/

namespace Dnmx

/-- What an implementation is called for: a mixin at an address, or (default implementations) an object. -/
inductive Self
  | mixin (m : Mix) (l : Loc)
  | object (o : Nat)
deriving DecidableEq, Repr

/-- What implementations do. Numbers of objects are given as functions of the number of the own object (`dm_this`, object_of.hpp 13-16; the
argument of a default implementation). -/
inductive Action
  /-- Access to a member of the mixin (of the object in default implementations). -/
  | use
  /-- An operation on objects. -/
  | op (f : Nat → OOp)
  /-- A call of the message `f`, as a multicast or as a unicast. -/
  | send (to : Nat → Nat) (f : Feat) (multi : Bool)
  /-- `call_next_impl_msg`, `call_next_bidder_set`, `call_next_bidder_top`. -/
  | next (f : Feat)
  | nextSet (f : Feat)
  | nextTop (f : Feat)
  /-- An exception of the implementation. -/
  | raise (n : Nat)

/-- Exceptions: of operations on objects or of calls. -/
inductive MErr
  | op (e : XErr)
  | call (e : CallErr)
deriving DecidableEq, Repr

/-- Outcomes. -/
inductive Out
  | done (h : Heap)
  | thrown (h : Heap) (e : MErr)
  | ub
  | more

/-- Tables of types, and what the functions behind the payloads do. The flag of an action tells that its exceptions are caught. -/
structure MsgEnv where
  table : TypeId → Feat → Option FEntry
  body : Mix → Nat → List (Action × Bool)
  dflt : Nat → List (Action × Bool)

/-- The tables of the types of a domain: `type::ftable` at the id of the feature. -/
def tablesOf (W : World) (d : DomId) (t : TypeId) (f : Feat) : Option FEntry :=
  ((W.doms d).typeAt d t).elim none (fun r => r.ftableAt (W.featId f))

/-- The own object: `object_of` (object_of.hpp 13-16) reads the pointer before the mixin. -/
def Self.obj? (h : Heap) : Self → Option Nat
  | .mixin _ l => if (h.blk l.1).isSome then h.owner l else none
  | .object o => if (h.obj? o).isSome then some o else none

section
variable (D : Decls) (E : TyEnv) (orc : Orc) (M : MsgEnv)

/-- Access to a member. It may change the value of the mixin. -/
def useSelf (h : Heap) : Self → Out
  | .mixin m l =>
    match h.live l with
    | some (m', _) => if m' = m ∧ (h.blk l.1).isSome then .done (h.setLive l (some (m, orc.val h.tick))).ticked else .ub
    | none => .ub
  | .object o => if (h.obj? o).isSome then .done h else .ub

variable (run : Self → List (Action × Bool) → Heap → Out)

/-- `msg_caller::call` (msg_caller.hpp 43-50) of a payload of the type `t`: `unchecked_get_at` reads the mixin data of the object at the index of
the payload; the function is one of the mixin that has this index in `t`. -/
def callAt (o : Nat) (t : TypeId) (p : Payload) (h : Heap) : Out :=
  match h.obj? o with
  | none => .ub
  | some ob =>
    match ob.data with
    | none => .ub
    | some a =>
      match h.slot? a p.mixinIndex, (E.mixins t)[p.mixinIndex]? with
      | some sl, some m => run (.mixin m sl.loc) (M.body m p.data.payload) h
      | _, _ => .ub

/-- Calls of several payloads, one after the other, up to the first exception. -/
def callEach (o : Nat) (t : TypeId) : List Payload → Heap → Out
  | [], h => .done h
  | p :: ps, h =>
    match callAt E M run o t p h with
    | .done h' => callEach o t ps h'
    | r => r

/-- `call_unicast` (msg_caller.hpp 52-62), `call_multicast` (64-80), `try_default_payload` (16-25). -/
def sendTo (o : Nat) (f : Feat) (multi : Bool) (h : Heap) : Out :=
  match h.obj? o with
  | none => .ub
  | some ob =>
    match ob.ty with
    | none => .ub
    | some t =>
      match M.table t f with
      | some e =>
        match e.pls with
        | p :: ps => callEach E M run o t (if multi then (ps.take e.topBack).reverse ++ [p] else [p]) h
        | [] => .ub
      | none =>
        match (D.feat f).defaultPayload with
        | none => .thrown h (.call .notImplemented)
        | some p => run (.object o) (M.dflt p) h

/-- `find_next_implementer` (type.cpp 54-64) in an entry, for the mixin with index `i`. -/
def nextIn (e : FEntry) (i : Nat) : Option Payload :=
  match findImplementer i 0 e.pls with
  | none => none
  | some k => e.pls[k + 1]?

/-- `find_next_bidder_set` (type.cpp 66-81) in an entry. -/
def nextSetIn (e : FEntry) (i : Nat) : List Payload :=
  match findImplementer i 0 e.pls with
  | none => []
  | some k =>
    match e.pls.drop k with
    | [] => []
    | f :: rest =>
      match skipBid f.data.bid (f :: rest) with
      | [] => []
      | b :: bs => b :: takeBid b.data.bid bs

/-- Which implementations follow, in the order of the calls: `call_next_impl_msg` (next_impl.hpp 20-31), `call_next_bidder_set` (40-58),
`call_next_bidder_top` (61-72). -/
inductive Following
  | impl
  | set
  | top
deriving DecidableEq, Repr

def Following.payloads (e : FEntry) (i : Nat) : Following → List Payload
  | .impl => (nextIn e i).toList
  | .set => (nextSetIn e i).reverse
  | .top => (nextSetIn e i).take 1

/-- The calls of what follows; they take the object of the mixin and its type anew. -/
def callFollowing (w : Following) (f : Feat) (m : Mix) (l : Loc) (h : Heap) : Out :=
  match (Self.mixin m l).obj? h with
  | none => .ub
  | some o =>
    match h.obj? o with
    | none => .ub
    | some ob =>
      match ob.ty with
      | none => .ub
      | some t =>
        match M.table t f, E.indexOf t m with
        | some e, some i =>
          match w.payloads e i with
          | [] => .thrown h (.call .noNext)
          | ps => callEach E M run o t ps h
        | _, _ => .thrown h (.call .noNext)

def following (w : Following) (f : Feat) (h : Heap) : Self → Out
  | .mixin m l => callFollowing E M run w f m l h
  | .object _ => .ub -- there is no such call

/-- An operation on objects. -/
def outOf : Res Heap → Out
  | .ok h => .done h
  | .throw h e => .thrown h (.op e)
  | .ub => .ub

/-- One action. -/
def act (self : Self) (h : Heap) : Action → Out
  | .use => useSelf orc h self
  | .op f =>
    match self.obj? h with
    | none => .ub
    | some o => outOf (ostep D E orc false h (f o))
  | .send to f multi =>
    match self.obj? h with
    | none => .ub
    | some o => sendTo D E M run (to o) f multi h
  | .next f => following E M run .impl f h self
  | .nextSet f => following E M run .set f h self
  | .nextTop f => following E M run .top f h self
  | .raise n => .thrown h (.call (.user n))

end

/-- What follows after an action whose exceptions are caught. -/
def Out.caught : Out → Out
  | .thrown h _ => .done h
  | r => r

/-- The actions of an implementation, one after the other; at most `n` actions deep. -/
def runActs (D : Decls) (E : TyEnv) (orc : Orc) (M : MsgEnv) : Nat → Self → List (Action × Bool) → Heap → Out
  | 0, _, _, _ => .more
  | _ + 1, _, [], h => .done h
  | n + 1, self, (a, c) :: as, h =>
    let r := act D E orc M (runActs D E orc M n) self h a
    match if c then r.caught else r with
    | .done h' => runActs D E orc M n self as h'
    | r => r

/-- A message called by the program. -/
def callMsg (D : Decls) (E : TyEnv) (orc : Orc) (M : MsgEnv) (n : Nat) (o : Nat) (f : Feat) (multi : Bool) (h : Heap) : Out :=
  sendTo D E M (runActs D E orc M n) o f multi h

end Dnmx
