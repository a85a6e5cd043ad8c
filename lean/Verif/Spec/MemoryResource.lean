import Verif.Model.MemoryResource
import Verif.Spec.Layout

/-!
# Specification: blocks of memory
-/

namespace Spec
open Dnmx

/-- A block of `size` bytes at a multiple of `at'` is good for a request of so many bytes with such an alignment. -/
def GoodBlock (bytes alignment : Nat) : Asked → Prop
  | .block at' size => bytes ≤ size ∧ alignment ∣ at'
  | .divByZero => False

/-- `aligned_alloc` wants sizes that are multiples of the alignment (C11 7.22.3.1). -/
def ProperCall : Asked → Prop
  | .block at' size => at' ∣ size
  | .divByZero => False

/-- The least multiple of the alignment that is not below `bytes`, without limits. -/
def rounded (bytes alignment : Nat) : Nat := (bytes + alignment - 1) / alignment * alignment

end Spec
