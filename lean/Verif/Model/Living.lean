import Verif.Model.Acting
import Verif.Model.System

/-!
# Messages in programs that use domains and objects

Model of calls of messages (code/dynamix/msg/msg_caller.hpp, code/dynamix/msg/next_impl.hpp) in programs as in `Model.System`: implementations of
messages do anything that the program itself can do. They ask for types, mutate objects by compositions, register and unregister elements, collect garbage,
operate on objects, call messages and next implementations. In contrast to `Model.Acting` the domain changes while messages are running, and the implementations see
everything that there is before they decide what to do next.

The table of a type is in the memory of the type (domain.cpp 549-836). A call that goes through several payloads reads the next one from there after each call
(msg_caller.hpp 70-77, next_impl.hpp 52-57), so the type has to exist then.

Simplifications: the number of deeds is limited by a parameter (`LOut.more`: not finished within the limit); the theorems are about all limits. Calls
happen outside of stack unwinding. There are objects of one domain only.
-/

namespace Dnmx

/-- What an implementation does. -/
inductive Deed
  | nothing
  /-- Access to a member of the mixin (of the object in default implementations). -/
  | use
  /-- An operation on domains and objects. -/
  | sys (op : SOp)
  /-- A call of the message `f` for object `o`, as a multicast or as a unicast. -/
  | send (o : Nat) (f : Feat) (multi : Bool)
  /-- `call_next_impl_msg`, `call_next_bidder_set`, `call_next_bidder_top`. -/
  | next (f : Feat)
  | nextSet (f : Feat)
  | nextTop (f : Feat)
  /-- An exception of the implementation. -/
  | raise (n : Nat)

/-- What to do next, as a function of everything there is and of the own object. -/
abbrev Doing := Sys → Nat → Deed

/-- What the functions behind the payloads do. The flag of a deed tells that its exceptions are caught. -/
structure Bodies where
  body : Mix → Nat → List (Doing × Bool)
  dflt : Nat → List (Doing × Bool)

/-- Exceptions: of operations or of calls. -/
inductive LErr
  | sys (e : SErr)
  | call (e : CallErr)
deriving DecidableEq, Repr

/-- Outcomes. -/
inductive LOut
  | done (S : Sys)
  | thrown (S : Sys) (e : LErr)
  | ub
  | more

/-- The end of something that only changes objects. -/
def Out.inWorld (W : World) : Out → LOut
  | .done h => .done ⟨W, h⟩
  | .thrown h (.op e) => .thrown ⟨W, h⟩ (.sys (.obj e))
  | .thrown h (.call e) => .thrown ⟨W, h⟩ (.call e)
  | .ub => .ub
  | .more => .more

/-- The end of an operation. -/
def LOut.ofSys : SRes → LOut
  | .ok S => .done S
  | .throw S e => .thrown S (.sys e)
  | .ub => .ub

section
variable (D : Decls) (orc : Orc) (d : DomId) (B : Bodies)
variable (run : Self → List (Doing × Bool) → Sys → LOut)

/-- `msg_caller::call` (msg_caller.hpp 43-50) of a payload of the type `t`: the payload is read from the table of the type; `unchecked_get_at` reads the mixin data of the
object at the index of the payload; the function is one of the mixin that has this index in `t`. -/
def callAtL (o : Nat) (t : TypeId) (p : Payload) (S : Sys) : LOut :=
  match (S.W.doms d).typeAt d t with
  | none => .ub
  | some r =>
    match (S.h.obj? o).bind (·.data) with
    | none => .ub
    | some a =>
      match S.h.slot? a p.mixinIndex, r.mixins[p.mixinIndex]? with
      | some sl, some m => run (.mixin m sl.loc) (B.body m p.data.payload) S
      | _, _ => .ub

/-- Calls of several payloads, one after the other, up to the first exception. -/
def callEachL (o : Nat) (t : TypeId) : List Payload → Sys → LOut
  | [], S => .done S
  | p :: ps, S =>
    match callAtL d B run o t p S with
    | .done S' => callEachL o t ps S'
    | r => r

/-- `call_unicast` (msg_caller.hpp 52-62), `call_multicast` (64-80), `try_default_payload` (16-25). -/
def sendToL (o : Nat) (f : Feat) (multi : Bool) (S : Sys) : LOut :=
  match (S.h.obj? o).bind (·.ty) with
  | none => .ub
  | some t =>
    match (S.W.doms d).typeAt d t with
    | none => .ub
    | some r =>
      match r.ftableAt (S.W.featId f) with
      | some e =>
        match e.pls with
        | p :: ps => callEachL d B run o t (if multi then (ps.take e.topBack).reverse ++ [p] else [p]) S
        | [] => .ub
      | none =>
        match (D.feat f).defaultPayload with
        | none => .thrown S (.call .notImplemented)
        | some p => run (.object o) (B.dflt p) S

/-- The calls of what follows (next_impl.hpp 20-72, type.cpp 54-81); they take the object of the mixin and its type anew. -/
def followL (w : Following) (f : Feat) (S : Sys) : Self → LOut
  | .object _ => .ub -- there is no such call
  | .mixin m l =>
    match (Self.mixin m l).obj? S.h with
    | none => .ub
    | some o =>
      match (S.h.obj? o).bind (·.ty) with
      | none => .ub
      | some t =>
        match (S.W.doms d).typeAt d t with
        | none => .ub
        | some r =>
          match r.ftableAt (S.W.featId f), r.indexOf (S.W.mixId m) with
          | some e, some i =>
            match w.payloads e i with
            | [] => .thrown S (.call .noNext)
            | ps => callEachL d B run o t ps S
          | _, _ => .thrown S (.call .noNext)

/-- One deed. -/
def perform1 (self : Self) (S : Sys) : Deed → LOut
  | .nothing => .done S
  | .use => (useSelf orc S.h self).inWorld S.W
  | .sys op => .ofSys (sstep D orc d S op)
  | .send o f multi => sendToL D d B run o f multi S
  | .next f => followL d B run .impl f S self
  | .nextSet f => followL d B run .set f S self
  | .nextTop f => followL d B run .top f S self
  | .raise n => .thrown S (.call (.user n))

/-- What an implementation decides to do: it finds its object (object_of.hpp 13-16) and looks around. -/
def decided (a : Doing) (self : Self) (S : Sys) : LOut :=
  match self.obj? S.h with
  | none => .ub
  | some o => perform1 D orc d B run self S (a S o)

end

/-- What follows after a deed whose exceptions are caught. -/
def LOut.caught : LOut → LOut
  | .thrown S _ => .done S
  | r => r

/-- The deeds of an implementation, one after the other; at most `n` deep. -/
def runDeeds (D : Decls) (orc : Orc) (d : DomId) (B : Bodies) : Nat → Self → List (Doing × Bool) → Sys → LOut
  | 0, _, _, _ => .more
  | _ + 1, _, [], S => .done S
  | n + 1, self, (a, c) :: as, S =>
    let r := decided D orc d B (runDeeds D orc d B n) a self S
    match if c then r.caught else r with
    | .done S' => runDeeds D orc d B n self as S'
    | r => r

/-- A program: operations, and calls of messages. -/
inductive LOp
  | sys (op : SOp)
  | call (o : Nat) (f : Feat) (multi : Bool)

def lstep (D : Decls) (orc : Orc) (d : DomId) (B : Bodies) (n : Nat) (S : Sys) : LOp → LOut
  | .sys op => .ofSys (sstep D orc d S op)
  | .call o f multi => sendToL D d B (runDeeds D orc d B n) o f multi S

/-- The program runs; exceptions are caught between its operations. -/
def lrun (D : Decls) (orc : Orc) (d : DomId) (B : Bodies) (n : Nat) : List LOp → Sys → LOut
  | [], S => .done S
  | op :: ops, S =>
    match (lstep D orc d B n S op).caught with
    | .done S' => lrun D orc d B n ops S'
    | r => r

end Dnmx
