/-!
# Specification: edits of mixin lists

Independent of the model; mixins are addresses (`Nat`).
-/

namespace Spec

/-- `p` is the last position in `l` at which its element occurs. -/
def IsLastPos (l : List Nat) (p : Nat) : Prop :=
  ∃ x, l[p]? = some x ∧ ∀ q, p < q → l[q]? ≠ some x

/-- `r` consists of the elements of `l` at their last positions, in order. -/
def KeepsLast (l r : List Nat) : Prop :=
  ∃ ps : List Nat, ps.Pairwise (· < ·) ∧ (∀ p, p ∈ ps ↔ IsLastPos l p) ∧ r.map some = ps.map (fun p => l[p]?)

/-- `r` is `l` without its first occurrence of `x`. -/
def RemovesFirst (l : List Nat) (x : Nat) (r : List Nat) : Prop :=
  ∃ pre post, l = pre ++ x :: post ∧ x ∉ pre ∧ r = pre ++ post

/-- Everything that can be reached from the elements of `start` along the edges `deps`
(first component pulls in the second). -/
inductive Reach (deps : List (Nat × Nat)) (start : List Nat) : Nat → Prop
  | base {x : Nat} (h : x ∈ start) : Reach deps start x
  | step {x y : Nat} (h : Reach deps start x) (e : (x, y) ∈ deps) : Reach deps start y

end Spec
