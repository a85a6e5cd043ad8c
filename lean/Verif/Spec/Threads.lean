import Verif.Model.ObjectSteps
import Verif.Spec.Independent

/-!
# Vocabulary for objects in several threads (C78)

Each thread has a program (a list of calls) with its own objects, as in `Spec/Independent`. The calls are executed step by step
(`Model/ObjectSteps`) and between any two steps other threads can do any number of steps. The threads share the memory, the allocators and the
object counts of types. The events that a thread sees (functions of mixins and allocators called by it) and the number of calls of the
outside world are its own.
-/

namespace Spec
open Dnmx Dnmx.Steps

structure Thread where
  /-- the calls that are not yet started -/
  todo : List Call
  /-- the current call: what the outside world does, and the rest of the operation -/
  cur : Option (Orc × Prog Unit) := none
  tick : Nat := 0
  log : List Ev := []
  /-- `tick` and the length of `log` at the beginning of the current call -/
  startTick : Nat := 0
  startLog : Nat := 0
  /-- the numbers of the objects of the thread -/
  nums : List Nat := []
  /-- the outcomes of the calls that are over -/
  outs : List Outcome := []

structure Threads where
  heap : Heap := {}
  threads : Nat → Thread

/-- The threads before the first step. -/
def Threads.start (programs : Nat → List Call) : Threads := { threads := fun p => { todo := programs p } }

def Threads.with (S : Threads) (p : Nat) (h : Heap) (T : Thread) : Threads := ⟨h, fun q => if q = p then T else S.threads q⟩

/-- The current call of a thread is over. -/
def Thread.finish (T : Thread) (e : Option XErr) : Thread :=
  { T with cur := none, outs := T.outs ++ [⟨e.map (errorSince T.startTick), (T.log.drop T.startLog).map eventSeen⟩] }

/-- A thread starts its next call. -/
def Thread.begin (D : Decls) (E : TyEnv) (T : Thread) (c : Call) (cs : List Call) : Thread :=
  { T with
    todo := cs
    cur := some (startingAt c.world T.tick, program D E c.unwinding (renOp (numberIn T.nums) c.op))
    startTick := T.tick
    startLog := T.log.length }

/-- The memory as a thread sees it. -/
def Threads.seenBy (S : Threads) (T : Thread) : Heap := { S.heap with tick := T.tick, log := T.log }

/-- A thread after a step, with the number of a new object. -/
def Thread.stepped (T : Thread) (w : Orc) (P : Prog Unit) (before after : Heap) : Thread :=
  { T with
    cur := some (w, P)
    tick := after.tick
    log := after.log
    nums := if before.objs.length < after.objs.length then T.nums ++ [before.objs.length] else T.nums }

/-- Thread `p` does one step. `none`: undefined behaviour. -/
def Threads.move (D : Decls) (E : TyEnv) (S : Threads) (p : Nat) : Option Threads :=
  match (S.threads p).cur with
  | none =>
    match (S.threads p).todo with
    | [] => some S
    | c :: cs => some (S.with p S.heap ((S.threads p).begin D E c cs))
  | some (_, .ok _) => some (S.with p S.heap ((S.threads p).finish none))
  | some (_, .throw _ e) => some (S.with p S.heap ((S.threads p).finish (some e)))
  | some (w, P) => (P.step D w (S.seenBy (S.threads p))).map (fun r => S.with p r.1 ((S.threads p).stepped w r.2 S.heap r.1))

/-- The threads do steps in the given order. -/
def Threads.run (D : Decls) (E : TyEnv) : List Nat → Threads → Option Threads
  | [], S => some S
  | p :: ps, S => (S.move D E p).bind (Threads.run D E ps)

/-- All calls of a thread are over. -/
def Thread.done (T : Thread) : Prop := T.cur = none ∧ T.todo = []

/-- The number of steps of an operation without interruption. -/
def progSteps (D : Decls) (orc : Orc) : Prog α → Heap → Nat
  | .ok _, _ | .throw _ _, _ | .ub, _ => 0
  | .getObj o k, h => 1 + progSteps D orc (k (h.obj? o)) h
  | .setObj o x k, h => 1 + progSteps D orc k (h.setObj o x)
  | .addObj ob k, h => 1 + progSteps D orc (k h.objs.length) { h with objs := h.objs ++ [some ob] }
  | .outside k, h => 1 + progSteps D orc (k (orc.fail h.tick) (orc.val h.tick) h.tick) h.ticked
  | .alloc b k, h => 1 + progSteps D orc (k h.next) (h.allocate b)
  | .dealloc a b k, h => match h.deallocate a b with
    | some h' => 1 + progSteps D orc k h'
    | none => 0
  | .getSlot a i k, h => match h.slot? a i with
    | some sl => 1 + progSteps D orc (k sl) h
    | none => 0
  | .setSlot a i s k, h => 1 + progSteps D orc k (h.setSlot a i s)
  | .setOwner l o k, h => 1 + progSteps D orc k (h.setOwner l o)
  | .getLive l k, h => 1 + progSteps D orc (k (h.live l)) h
  | .setLive l v k, h => 1 + progSteps D orc k (h.setLive l v)
  | .construct l m v how k, h => match h.construct l m v how with
    | some h' => 1 + progSteps D orc k h'
    | none => 0
  | .destroy l m k, h => match h.destroy D l m with
    | some h' => 1 + progSteps D orc k h'
    | none => 0
  | .count t n k, h => 1 + progSteps D orc k (h.countUp t n)
  | .log e k, h => 1 + progSteps D orc k (h.logged e)

/-- The number of steps of a program alone: each call begins with a step and ends with a step. -/
def stepsAlone (D : Decls) (E : TyEnv) : List Call → Heap → Nat
  | [], _ => 0
  | c :: cs, h =>
    progSteps D (startingAt c.world h.tick) (program D E c.unwinding c.op) h + 2 +
      match exec D E h c with
      | .ok h' => stepsAlone D E cs h'
      | .throw h' _ => stepsAlone D E cs h'
      | .ub => 0

/-- Something in memory that a step reads or writes. Object counts of types are atomic and not listed. -/
inductive Place
  | object (o : Nat)
  | block (a : Nat)
deriving DecidableEq, Repr

def howReads : How → List Place
  | .copied l => [.block l.1]
  | .moved l => [.block l.1]
  | _ => []

/-- The places that the next step of a program reads or writes. -/
def touches : Prog α → List Place
  | .getObj o _ => [.object o]
  | .setObj o _ _ => [.object o]
  | .dealloc a _ _ => [.block a]
  | .getSlot a _ _ => [.block a]
  | .setSlot a _ _ _ => [.block a]
  | .setOwner l _ _ => [.block l.1]
  | .getLive l _ => [.block l.1]
  | .setLive l _ _ => [.block l.1]
  | .construct l _ _ how _ => .block l.1 :: howReads how
  | .destroy l _ _ => [.block l.1]
  | _ => []

/-- The places that the next step of a thread reads or writes. -/
def Thread.touches (T : Thread) : List Place :=
  match T.cur with
  | some (_, P) => Spec.touches P
  | none => []

/-- The sum of `f` over the first `n` threads. -/
def sumOver (n : Nat) (f : Nat → Int) : Int := ((List.range n).map f).foldr (· + ·) 0

end Spec
