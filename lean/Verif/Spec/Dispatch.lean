import Verif.Spec.Features
import Verif.Model.Dispatch

/-!
# Specification: what calling a message does

In terms of the implementations that the mixins declare. From the model only the notion of a program's functions
(`Impls`) is used.
-/

namespace Spec
open Dnmx

variable {σ R : Type}

/-- `w` is an implementation that no other beats. -/
def Winner (D : Decls) (ms : List Nat) (f : Nat) (w : Nat × FeatFor) : Prop :=
  w ∈ allImpls D ms f ∧ ∀ x ∈ allImpls D ms f, WinsOrSame w x

/-- The implementations with the greatest bid. -/
def topImpls (D : Decls) (ms : List Nat) (f : Nat) : List (Nat × FeatFor) :=
  (allImpls D ms f).filter (fun x => (allImpls D ms f).all (fun y => y.2.bid ≤ x.2.bid))

/-- The implementations with the greatest bid below `b`. -/
def nextTopImpls (D : Decls) (ms : List Nat) (f : Nat) (b : Int) : List (Nat × FeatFor) :=
  (allImpls D ms f).filter (fun x => x.2.bid < b && (allImpls D ms f).all (fun y => decide (y.2.bid < b → y.2.bid ≤ x.2.bid)))

/-- Order of the calls of a multicast: descending priority value, then ascending position in the type. -/
def CalledBefore (a b : Nat × FeatFor) : Prop :=
  a.2.priority > b.2.priority ∨ (a.2.priority = b.2.priority ∧ a.1 ≤ b.1)

/-- A call of an implementation with the data of its mixin. -/
def callImpl (I : Impls σ R) (w : Nat × FeatFor) (s : σ) : Except CallErr R × σ := I.fn w.2.payload (I.dataAt s w.1) s

/-- The calls of `xs` and then `w`, one after the other, up to the first exception; the result is that of `w`. -/
def callInOrder (I : Impls σ R) (w : Nat × FeatFor) : List (Nat × FeatFor) → σ → Except CallErr R × σ
  | [], s => callImpl I w s
  | x :: xs, s =>
    match callImpl I x s with
    | (.error e, s') => (.error e, s')
    | (.ok _, s') => callInOrder I w xs s'

/-- The calls of `xs` up to the first that returns `stop` (or throws): `stop` if there is such, else `!stop`. -/
def callUntil (I : Impls σ Bool) (stop : Bool) : List (Nat × FeatFor) → σ → Except CallErr Bool × σ
  | [], s => (.ok (!stop), s)
  | x :: xs, s =>
    match callImpl I x s with
    | (.error e, s') => (.error e, s')
    | (.ok r, s') => if r = stop then (.ok stop, s') else callUntil I stop xs s'

/-- The calls of all of `xs`, adding up the results. -/
def callSum (I : Impls σ Int) : List (Nat × FeatFor) → σ → Except CallErr Int × σ
  | [], s => (.ok 0, s)
  | x :: xs, s =>
    match callImpl I x s with
    | (.error e, s') => (.error e, s')
    | (.ok r, s') =>
      match callSum I xs s' with
      | (.error e, s'') => (.error e, s'')
      | (.ok q, s'') => (.ok (r + q), s'')

/-- No mixin of the composition lists the feature twice. -/
def ListsOnce (D : Decls) (ms : List Nat) (f : Nat) : Prop :=
  ∀ m ∈ ms, ((D.mix m).feats.filter (fun ff => ff.feat = f)).length ≤ 1

/-- Walk from an implementation with `next` (a function of the position of the mixin), at most `n` steps. -/
def walk (next : Nat → Option (Nat × FeatFor)) : Nat → Option (Nat × FeatFor) → List (Nat × FeatFor)
  | 0, _ => []
  | _, none => []
  | n + 1, some x => x :: walk next n (next x.1)

end Spec
