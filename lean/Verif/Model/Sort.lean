/-!
# Sorting

`std::sort` (used in code/dynamix/domain.cpp 57, 649 and type_mutation rules) with a comparator that is a strict
weak order gives a sorted permutation; the order of elements which the comparator does not distinguish is open.
-/

namespace Dnmx

/-- Insert before the first element that is not smaller. -/
def insertBy {α : Type} (lt : α → α → Bool) (x : α) : List α → List α
  | [] => [x]
  | y :: ys => if lt y x then y :: insertBy lt x ys else x :: y :: ys

/-- `std::sort` (see above). Simplification: elements which `lt` does not distinguish are kept in order. -/
def sortBy {α : Type} (lt : α → α → Bool) : List α → List α
  | [] => []
  | x :: xs => insertBy lt x (sortBy lt xs)

end Dnmx
