/-!
# Initializers that are given one after the other

Each is for a position, none can go back: it gets its own position or, if that is taken, the next one.
-/

namespace Spec

/-- The positions that initializers for the given positions get, from `u` on. -/
def places : Nat → List (Nat × Nat) → List (Nat × Nat)
  | _, [] => []
  | u, (i, c) :: l => (max u i, c) :: places (max u i + 1) l

end Spec
