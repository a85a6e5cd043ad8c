import Verif.Spec.Threads

/-!
# Vocabulary for calls within calls (C82)

Functions of mixins and allocators are called in the middle of operations on objects, and use other objects themselves: they do
operations, whose functions use other objects again, and so on. There are parts of the program with their own objects, as in
`Spec/Independent` and `Spec/Threads`, but there is one thread only: a call of a part can be interrupted by a call of another part, which ends
before the interrupted one goes on. Calls can be interrupted before any step; in reality they are within functions of mixins and allocators only.
-/

namespace Spec
open Dnmx Dnmx.Steps

/-- The parts with their calls, and the parts whose calls are in progress, the innermost first. -/
structure Nest where
  parts : Threads
  stack : List Nat := []

inductive Act
  /-- the innermost call does a step -/
  | go
  /-- the innermost call is interrupted by the next call of part `p` -/
  | enter (p : Nat)
deriving DecidableEq, Repr

/-- What happens; `none`: undefined behaviour. A part whose call is in progress is not entered again. -/
def Nest.act (D : Decls) (E : TyEnv) (N : Nest) : Act → Option Nest
  | .go =>
    match N.stack with
    | [] => some N
    | p :: ps => (N.parts.move D E p).map (fun S => ⟨S, if (S.threads p).cur.isNone then ps else p :: ps⟩)
  | .enter p =>
    if p ∈ N.stack ∨ (N.parts.threads p).todo = [] then some N
    else (N.parts.move D E p).map (fun S => ⟨S, p :: N.stack⟩)

def Nest.run (D : Decls) (E : TyEnv) : List Act → Nest → Option Nest
  | [], N => some N
  | a :: as, N => (N.act D E a).bind (Nest.run D E as)

def Nest.start (programs : Nat → List Call) : Nest := { parts := Threads.start programs }

/-- The part which does a step. -/
def Nest.mover (N : Nest) : Act → Option Nat
  | .go => N.stack.head?
  | .enter p => if p ∈ N.stack ∨ (N.parts.threads p).todo = [] then none else some p

/-- Part `q` does no step. -/
def Nest.spares (D : Decls) (E : TyEnv) (q : Nat) : List Act → Nest → Prop
  | [], _ => True
  | a :: as, N => N.mover a ≠ some q ∧ ∀ N', N.act D E a = some N' → N'.spares D E q as

end Spec
