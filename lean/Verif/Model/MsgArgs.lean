import Verif.Model.Dispatch

/-!
# Arguments of messages

How arguments get from the caller of a message to its implementations: the generated message function or
`msg_traits::call_…` (code/dynamix/msg/define_msg.hpp 20-24, msg_traits.hpp 25-30), `msg_caller` (msg_caller.hpp 43-102),
the function that a payload points to (msg_traits.hpp 35-44) or the one which is generated for a method (func_traits.hpp
18-21), and the method.

Variables are numbers. A variable has a value, or it was moved from (`none`). Parameters are initialized from left to right
(C++ leaves the order open; it makes no difference if a variable that is moved from is given only once). All types can be
copied and moved. Reading a variable does not change it. Exceptions come from implementations only.
-/

namespace Dnmx

/-- The declared type of a parameter: `T`, `T&`, `const T&` or `T&&`. -/
inductive Pass
  | value
  | ref
  | cref
  | rref
deriving DecidableEq, Repr

/-- An argument: a variable, as rvalue (`std::move(x)`) or as lvalue. -/
structure Arg where
  cell : Nat
  rv : Bool
deriving DecidableEq, Repr

abbrev Val := Option Nat

/-- The variables, the first unused one, and how many copies and moves were made. -/
structure Store where
  val : Nat → Val
  next : Nat
  copies : Nat := 0
  moves : Nat := 0

@[reducible] def Store.set (st : Store) (c : Nat) (v : Val) : Store := { st with val := fun x => if x = c then v else st.val x }

/-- Initialization of a parameter: the variable that it is, or refers to. -/
def bindParam (k : Pass) (a : Arg) (st : Store) : Nat × Store :=
  match k with
  | .value =>
    if a.rv then (st.next, { ({ st with val := fun x => if x = st.next then st.val a.cell else if x = a.cell then none else st.val x } : Store) with
      next := st.next + 1, moves := st.moves + 1 })
    else (st.next, { ({ st with val := fun x => if x = st.next then st.val a.cell else st.val x } : Store) with
      next := st.next + 1, copies := st.copies + 1 })
  | _ => (a.cell, st)

def bindParams : List Pass → List Arg → Store → List Nat × Store
  | k :: ks, a :: as, st =>
    let r := bindParam k a st
    let rs := bindParams ks as r.2
    (r.1 :: rs.1, rs.2)
  | _, _, st => ([], st)

/-- `std::forward<Args>(args)` for a parameter of type `k`. -/
def fwdArg (k : Pass) (c : Nat) : Arg := ⟨c, match k with | .value => true | .rref => true | _ => false⟩

/-- `std::forward<Args>(args)...` -/
def fwdArgs : List Pass → List Nat → List Arg
  | k :: ks, c :: cs => fwdArg k c :: fwdArgs ks cs
  | _, _ => []

/-- `args...` -/
def lvArgs (cs : List Nat) : List Arg := cs.map (fun c => ⟨c, false⟩)

/-- What the implementation leaves in its parameters. -/
def writeBack : List Pass → List Nat → List Val → Store → Store
  | k :: ks, c :: cs, v :: vs, st => writeBack ks cs vs (match k with | .cref => st | _ => st.set c v)
  | _, _, _, st => st

/-- The functions of a program. `own` has the types of the parameters of the method if the payload is the function generated for
a method. A function gets the values of its parameters and leaves other values. -/
structure ArgFns (σ R : Type) where
  dataAt : σ → Nat → Nat
  own : Nat → Option (List Pass)
  fn : (payload data : Nat) → List Val → σ → Except CallErr R × List Val × σ
  dflt : (payload : Nat) → List Val → σ → Except CallErr R × List Val × σ

variable {σ R : Type}

/-- The body of a function with parameters of types `ks`. -/
def runBody (f : List Val → σ → Except CallErr R × List Val × σ) (ks : List Pass) (cs : List Nat) (st : Store) (s : σ) :
    Except CallErr R × Store × σ :=
  ((f (cs.map st.val) s).1, writeBack ks cs (f (cs.map st.val) s).2.1 st, (f (cs.map st.val) s).2.2)

/-- `msg_caller::call` (msg_caller.hpp 43-50) of a payload with parameters of types `sig`, and the function generated for a method
(func_traits.hpp 18-21). -/
def callPayloadArgs (I : ArgFns σ R) (sig : List Pass) (p : Payload) (args : List Arg) (st : Store) (s : σ) :
    Except CallErr R × Store × σ :=
  let f := I.fn p.data.payload (I.dataAt s p.mixinIndex)
  let b := bindParams sig args st
  match I.own p.data.payload with
  | none => runBody f sig b.1 b.2 s
  | some ks =>
    let m := bindParams ks (fwdArgs sig b.1) b.2
    runBody f ks m.1 m.2 s

/-- `try_default_payload` (msg_caller.hpp 16-25). -/
def tryDefaultArgs (D : Decls) (I : ArgFns σ R) (sig : List Pass) (f : Feat) (args : List Arg) (st : Store) (s : σ) :
    Except CallErr R × Store × σ :=
  match (D.feat f).defaultPayload with
  | none => (.error .notImplemented, st, s)
  | some p =>
    let b := bindParams sig args st
    runBody (I.dflt p) sig b.1 b.2 s

/-- A unicast message: its function with the parameters `sig`, and `call_unicast` (msg_caller.hpp 52-62). -/
def unicastArgs (D : Decls) (I : ArgFns σ R) (sig : List Pass) (t : TypeRec) (f : Feat) (fid : Option Nat) (args : List Arg) (st : Store)
    (s : σ) : Except CallErr R × Store × σ :=
  let b := bindParams sig args st
  match t.ftableAt fid with
  | some e =>
    match e.pls with
    | p :: _ => callPayloadArgs I sig p (fwdArgs sig b.1) b.2 s
    | [] => tryDefaultArgs D I sig f (fwdArgs sig b.1) b.2 s
  | none => tryDefaultArgs D I sig f (fwdArgs sig b.1) b.2 s

/-- The loop of `call_multicast` (msg_caller.hpp 72-74). -/
def multicastLoopArgs (I : ArgFns σ R) (sig : List Pass) (cs : List Nat) : List Payload → Store → σ → Except CallErr Unit × Store × σ
  | [], st, s => (.ok (), st, s)
  | p :: ps, st, s =>
    match callPayloadArgs I sig p (lvArgs cs) st s with
    | (.error e, st', s') => (.error e, st', s')
    | (.ok _, st', s') => multicastLoopArgs I sig cs ps st' s'

/-- `call(*i, obj, args...)` compiles if no parameter is an rvalue reference. -/
def lvaluesFit (sig : List Pass) : Bool := sig.all (fun k => k != .rref)

/-- A multicast message: its function with the parameters `sig`, and `call_multicast` (msg_caller.hpp 64-80). `none`: it does not
compile. -/
def multicastArgs (D : Decls) (I : ArgFns σ R) (sig : List Pass) (t : TypeRec) (f : Feat) (fid : Option Nat) (args : List Arg) (st : Store)
    (s : σ) : Option (Except CallErr R × Store × σ) :=
  if lvaluesFit sig then
    let b := bindParams sig args st
    some (match t.ftableAt fid with
      | some e =>
        match e.pls with
        | p :: ps =>
          match multicastLoopArgs I sig b.1 (ps.take e.topBack).reverse b.2 s with
          | (.error err, st', s') => (.error err, st', s')
          | (.ok (), st', s') => callPayloadArgs I sig p (fwdArgs sig b.1) st' s'
        | [] => tryDefaultArgs D I sig f (fwdArgs sig b.1) b.2 s
      | none => tryDefaultArgs D I sig f (fwdArgs sig b.1) b.2 s)
  else none

end Dnmx
