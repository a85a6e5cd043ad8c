import Verif.Model.TypeBuffer

/-!
# Specification: a type in memory
-/

namespace Spec
open Dnmx

/-- The number of bytes for the parts of a type with `entries` entries and `pls` payloads in its feature table, `n` mixins and `sp`
entries in its index table, without any overflow. -/
def typeNeed (entries pls n sp : Nat) : Nat := 96 + 24 * entries + 24 * pls + 8 * n + 4 * n + 4 * sp

/-- All accesses to the block through `type` are defined (no access outside of the block, no misaligned one, no read of bytes which were
not written or which were overwritten by something else), and their results are those of `t`. -/
structure InMemory (b : Block) (t : TypeRec) : Prop where
  dom : b.domain = some t.dom
  mixins : ∀ i, b.mixinAt i = some t.mixins[i]?
  offsets : ∀ i, b.offsetAt i = some t.layout.offsets[i]?
  indexOf : ∀ id, b.indexOf id = some (t.indexOf (some id))
  ftable : ∀ id, b.ftableAt id = some (t.ftableAt (some id))
  /-- the last number is the one which is used when the block is freed -/
  sizes : b.sizes = some (t.layout.size, t.layout.align, b.size)
  /-- there are no objects yet -/
  objects : b.numObjects = some 0

end Spec
