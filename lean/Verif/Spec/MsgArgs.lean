import Verif.Spec.Dispatch
import Verif.Model.MsgArgs

/-!
# Specification: which arguments implementations get

A program in which values are given to functions directly: a message call takes the values of its by-value arguments once, and
each implementation gets these values, and the variables themselves for references. From the model only the types of
parameters, arguments and program functions are used.
-/

namespace Spec
open Dnmx

variable {σ R : Type}

/-- The variables after the arguments of a call were taken: those which were given by rvalue for a parameter by value are moved from. -/
def argsTaken : List Pass → List Arg → (Nat → Val) → Nat → Val
  | .value :: ks, a :: as, mem => if a.rv then argsTaken ks as (fun x => if x = a.cell then none else mem x) else argsTaken ks as mem
  | _ :: ks, _ :: as, mem => argsTaken ks as mem
  | _, _, mem => mem

/-- The values that an implementation gets: for by-value parameters those of the message call (`vs`), for others the current
values of the variables. -/
def seen : List Pass → List Arg → List Val → (Nat → Val) → List Val
  | .value :: ks, _ :: as, v :: vs, mem => v :: seen ks as vs mem
  | _ :: ks, a :: as, _ :: vs, mem => mem a.cell :: seen ks as vs mem
  | _, _, _, _ => []

/-- What an implementation whose own parameters have types `own` does to the variables of the caller: it changes those which
it has by non-const reference. -/
def left : List Pass → List Pass → List Arg → List Val → (Nat → Val) → Nat → Val
  | .ref :: ks, .ref :: own, a :: as, v :: vs, mem => left ks own as vs (fun x => if x = a.cell then v else mem x)
  | .rref :: ks, .rref :: own, a :: as, v :: vs, mem => left ks own as vs (fun x => if x = a.cell then v else mem x)
  | _ :: ks, _ :: own, _ :: as, _ :: vs, mem => left ks own as vs mem
  | _, _, _, _, mem => mem

/-- A method with a parameter by value takes what the message has by rvalue reference. -/
def takenBy : List Pass → List Pass → List Arg → (Nat → Val) → Nat → Val
  | .rref :: ks, .value :: own, a :: as, mem => takenBy ks own as (fun x => if x = a.cell then none else mem x)
  | _ :: ks, _ :: own, _ :: as, mem => takenBy ks own as mem
  | _, _, _, mem => mem

/-- The functions of the program on the variables of the caller, for a message call with arguments `as` with the values `vs`. -/
def directly (I : ArgFns σ R) (sig : List Pass) (as : List Arg) (vs : List Val) : Impls ((Nat → Val) × σ) R where
  dataAt x i := I.dataAt x.2 i
  fn p d x :=
    let r := I.fn p d (seen sig as vs x.1) x.2
    let own := (I.own p).getD sig
    (r.1, (left sig own as r.2.1 (takenBy sig own as x.1), r.2.2))
  dflt p x :=
    let r := I.dflt p (seen sig as vs x.1) x.2
    (r.1, (left sig sig as r.2.1 x.1, r.2.2))

/-- A call with arguments ended like a call of functions on the variables `0 … n - 1` of the caller. -/
def EndsLike (n : Nat) (x : Except CallErr R × Store × σ) (y : Except CallErr R × (Nat → Val) × σ) : Prop :=
  x.1 = y.1 ∧ x.2.2 = y.2.2 ∧ ∀ v, v < n → x.2.1.val v = y.2.1 v

/-- The same functions, which also log their payload and the values of their parameters. -/
def logged (I : ArgFns σ R) : ArgFns (σ × List (Nat × List Val)) R where
  dataAt s i := I.dataAt s.1 i
  own := I.own
  fn p d vs s := ((I.fn p d vs s.1).1, (I.fn p d vs s.1).2.1, ((I.fn p d vs s.1).2.2, s.2 ++ [(p, vs)]))
  dflt p vs s := ((I.dflt p vs s.1).1, (I.dflt p vs s.1).2.1, ((I.dflt p vs s.1).2.2, s.2 ++ [(p, vs)]))

/-- The arguments can be given to parameters of these types: no rvalue for `T&`, no lvalue for `T&&`. -/
def argFits : Pass → Arg → Prop
  | .ref, a => a.rv = false
  | .rref, a => a.rv = true
  | _, _ => True

/-- A method with a parameter of type `own` can be called with a parameter of type `k` of the message. -/
def ownFits : Pass → Pass → Prop
  | .ref, .ref => True
  | .ref, _ => False
  | .rref, .value => True
  | .rref, .rref => True
  | .rref, _ => False
  | _, _ => True

/-- The call compiles, a variable which is given by rvalue is not given a second time, and all are variables of the caller. -/
structure GoodArgs (sig : List Pass) (as : List Arg) (next : Nat) : Prop where
  count : as.length = sig.length
  fits : ∀ (i : Nat) k a, sig[i]? = some k → as[i]? = some a → argFits k a
  once : as.Pairwise (fun a b => a.rv = true ∨ b.rv = true → a.cell ≠ b.cell)
  known : ∀ a ∈ as, a.cell < next

/-- The methods can be called with the parameters of the message. -/
def GoodMethods (I : ArgFns σ R) (sig : List Pass) : Prop :=
  ∀ p own, I.own p = some own → own.length = sig.length ∧ ∀ (i : Nat) o k, own[i]? = some o → sig[i]? = some k → ownFits o k

/-- How many variables are copied (`rv = false`) or moved (`rv = true`) when parameters of these types get these arguments. -/
def made (rv : Bool) : List Pass → List Arg → Nat
  | .value :: ks, a :: as => made rv ks as + (if a.rv = rv then 1 else 0)
  | _ :: ks, _ :: as => made rv ks as
  | _, _ => 0

/-- How many parameters are by value. -/
def byValue (ks : List Pass) : Nat := (ks.filter (fun k => k = .value)).length

/-- How many copies a method makes of the parameters of the message. -/
def ownCopies : List Pass → List Pass → Nat
  | .ref :: ks, .value :: own => ownCopies ks own + 1
  | .cref :: ks, .value :: own => ownCopies ks own + 1
  | _ :: ks, _ :: own => ownCopies ks own
  | _, _ => 0

/-- How many moves a method makes of the parameters of the message. -/
def ownMoves : List Pass → List Pass → Nat
  | .value :: ks, .value :: own => ownMoves ks own + 1
  | .rref :: ks, .value :: own => ownMoves ks own + 1
  | _ :: ks, _ :: own => ownMoves ks own
  | _, _ => 0

/-- The same for the function of a payload. -/
def payloadCopies (I : ArgFns σ R) (sig : List Pass) (p : Nat) : Nat := ((I.own p).map (ownCopies sig)).getD 0
def payloadMoves (I : ArgFns σ R) (sig : List Pass) (p : Nat) : Nat := ((I.own p).map (ownMoves sig)).getD 0

end Spec
