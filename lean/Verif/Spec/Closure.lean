import Verif.Spec.Lists

/-!
# How many passes a closure takes

Passes over a list of edges `(x, y)`: "if `x` is there, `y` is added".
-/

namespace Spec

/-- `y` is there before edge number `i` of pass number `p` (from 0) is looked at. -/
inductive Within (deps : List (Nat × Nat)) (start : List Nat) : Nat → Nat → Nat → Prop
  | base {x : Nat} (h : x ∈ start) : Within deps start 0 0 x
  /-- an edge further down the list is used in the same pass -/
  | down {p i j x y : Nat} (h : Within deps start p i x) (hj : i ≤ j) (e : deps[j]? = some (x, y)) : Within deps start p (j + 1) y
  /-- an edge further up the list must wait for the next pass -/
  | up {p i j x y : Nat} (h : Within deps start p i x) (e : deps[j]? = some (x, y)) : Within deps start (p + 1) (j + 1) y

/-- No edge leads to where an edge before it starts: everything is there after one pass. -/
def InOrder (deps : List (Nat × Nat)) : Prop := deps.Pairwise (fun e e' => e'.2 ≠ e.1)

end Spec
