import Verif.Spec.Concurrent
import Verif.Spec.Answers

/-!
# Specification: overlapping calls in some order

What a program with many threads can see: when calls begin, when they end, and their answers. Such a timeline is explained by an
order of the calls if the calls, made one after the other in that order, have the same answers, and a call that was over before
another one began comes before it (linearizability, after Herlihy and Wing).
-/

namespace Spec
open Dnmx

/-- Thread `i` begins its call; its call is over and has an answer. -/
inductive Event
  | begins (i : Nat)
  | ends (i : Nat) (a : Answer)
deriving DecidableEq, Repr

/-- The answer of a call that is over: for `get_type` the composition of the type at this moment. -/
def reply (W : World) (op : Op) : Except Err (Option TypeId) → Answer
  | .error e => .fails e
  | .ok none => .done
  | .ok (some t) => match op.asked with
    | some (d, _) => answerOf d (.ok t, W)
    | none => .done

/-- What can be seen when thread `i` executes a part of its call. -/
def eventsOf (C C' : Threads) (i : Nat) : List Event :=
  match C.threads[i]?, C'.threads[i]? with
  | some th, some th' =>
    (match th.stage with | .todo => [.begins i] | _ => []) ++
    (match th.stage, th'.stage with
      | .done _, _ => []
      | _, .done r => [.ends i (reply C'.W th'.op r)]
      | _, _ => [])
  | _, _ => []

/-- What can be seen during the execution of a schedule. -/
def timeline (D : Decls) : Threads → List Nat → List Event
  | _, [] => []
  | C, i :: is => eventsOf C (C.step D i) i ++ timeline D (C.step D i) is

/-- The calls with these indices. -/
def callsAt (ops : List Op) (order : List Nat) : List Op := order.filterMap (fun i => ops[i]?)

/-- The order explains the timeline of the calls `ops`, which were made in state `W`. Calls that are not over may be in the
order or not. -/
structure OrderExplains (D : Decls) (W : World) (ops : List Op) (tl : List Event) (order : List Nat) : Prop where
  nodup : order.Nodup
  begun : ∀ i ∈ order, .begins i ∈ tl
  answers : ∀ i a, .ends i a ∈ tl → ∃ (k : Nat) (op : Op), order[k]? = some i ∧ ops[i]? = some op ∧ answer D (run D W (callsAt ops (order.take k))) op = a
  realTime : ∀ i a j l l', tl = l ++ .ends i a :: l' → .begins j ∈ l' → j ∈ order → ∃ k k' : Nat, k < k' ∧ order[k]? = some i ∧ order[k']? = some j

/-- Some order explains the timeline. -/
def Linearizable (D : Decls) (W : World) (ops : List Op) (tl : List Event) : Prop := ∃ order, OrderExplains D W ops tl order

end Spec
