import Verif.Proofs.BlockOver
import Verif.Props.Features

/-!
# C79: a type in memory

`create_type` places a type, its feature table with all payloads, the list of mixins, the offsets and the index table in one
block. Full statement: for all worlds and mixins for which the type can be computed (`buildType`, which the other properties
are about), the block can be filled without undefined behaviour and all reads through the type give what was computed. It is
false for types which need 4 GiB or more (`C79_huge_type_refuted`), and true for all others.
-/

namespace Dnmx.Props
open Spec

/-- the bytes for the type of `ms` -/
abbrev needOf (D : Decls) (W : World) (ms : List Mix) : Nat :=
  typeNeed (ftableSize W.featId (featStream D 0 ms)) (featStream D 0 ms).length ms.length (numSparse (ms.filterMap W.mixId))

/-- C79 (partial: less than 4 GiB): writing the parts of a type to its block is without undefined behaviour, no part overwrites
another one, and all that is read through the type is what was computed. The block has exactly the bytes which are needed. -/
theorem C79_type_in_memory_partial (D : Decls) (W : World) (d : DomId) (tid : TypeId) (ms : List Mix) (t : TypeRec)
    (h : buildType D W d tid ms = .ok t) (hn : needOf D W ms < 2 ^ 32) :
    ∃ b, typeBlock D W d ms = .ok b ∧ InMemory b t ∧ b.size = needOf D W ms := by
  have hc : checkMixins W.mixId W.mixDom d ms = .ok () := by
    unfold buildType at h
    split at h
    · simp at h
    · assumption
  have := typeBlock_sim D W d tid ms hc hn
  rw [h] at this
  exact this

/-- C79: the 4 GiB are the exact limit: with them or more there is an access outside of the block. -/
theorem C79_memory_exact (D : Decls) (W : World) (d : DomId) (tid : TypeId) (ms : List Mix) (t : TypeRec)
    (h : buildType D W d tid ms = .ok t) :
    (needOf D W ms < 2 ^ 32 ↔ ∃ b, typeBlock D W d ms = .ok b) ∧ (2 ^ 32 ≤ needOf D W ms ↔ typeBlock D W d ms = .error .ub) := by
  have h1 : needOf D W ms < 2 ^ 32 → ∃ b, typeBlock D W d ms = .ok b := fun hn => by
    obtain ⟨b, hb, _⟩ := C79_type_in_memory_partial D W d tid ms t h hn
    exact ⟨b, hb⟩
  have h2 : 2 ^ 32 ≤ needOf D W ms → typeBlock D W d ms = .error .ub := typeBlock_over D W d tid ms t h
  refine ⟨⟨h1, fun ⟨b, hb⟩ => Nat.lt_of_not_le (fun hge => ?_)⟩, h2, fun hu => Nat.le_of_not_lt (fun hn => ?_)⟩
  · rw [h2 hge] at hb; simp at hb
  · obtain ⟨b, hb⟩ := h1 hn
    rw [hu] at hb; simp at hb

/-- C79 (partial: less than 4 GiB): if the type cannot be built because features clash (or a feature has no id), the code in
the block ends in the same way. -/
theorem C79_same_failure_partial (D : Decls) (W : World) (d : DomId) (tid : TypeId) (ms : List Mix) (x : Err)
    (hc : checkMixins W.mixId W.mixDom d ms = .ok ()) (h : buildType D W d tid ms = .error x) (hn : needOf D W ms < 2 ^ 32) :
    typeBlock D W d ms = .error x := by
  have := typeBlock_sim D W d tid ms hc hn
  rw [h] at this
  exact this

/-- C79: reads through a type do not depend on how it came to the block: two blocks for the same record answer the same. -/
theorem C79_reads_determined (b b' : Block) (t : TypeRec) (h : InMemory b t) (h' : InMemory b' t) (i : Nat) :
    b.indexOf i = b'.indexOf i ∧ b.ftableAt i = b'.ftableAt i ∧ b.mixinAt i = b'.mixinAt i ∧ b.offsetAt i = b'.offsetAt i :=
  ⟨by rw [h.indexOf, h'.indexOf], by rw [h.ftable, h'.ftable], by rw [h.mixins, h'.mixins], by rw [h.offsets, h'.offsets]⟩

/-- One mixin with the id `2 ^ 30 - 1`. -/
def hugeWorld : World := { initWorld (fun _ => {}) with mixId := fun m => if m = 5 then some 1073741823 else none, mixDom := fun m => if m = 5 then some 0 else none }

/-- C79 is false without the limit: the index table for a mixin with the id `2 ^ 30 - 1` needs 4 GiB; the size is computed as 0
and the block gets 108 bytes. -/
theorem C79_huge_type_refuted : ∃ t, buildType (featDecls 3) hugeWorld 0 1 [5] = .ok t ∧
    (typeSizes 0 0 1 (numSparse ([5].filterMap hugeWorld.mixId))).total = 108 ∧
    typeBlock (featDecls 3) hugeWorld 0 [5] = .error .ub := by
  refine ⟨⟨1, 0, [5], layout ([5].map (featDecls 3).mix), sparseTable ([5].filterMap hugeWorld.mixId), []⟩, rfl, by decide +kernel, ?_⟩
  exact ((C79_memory_exact (featDecls 3) hugeWorld 0 1 [5]
    ⟨1, 0, [5], layout ([5].map (featDecls 3).mix), sparseTable ([5].filterMap hugeWorld.mixId), []⟩ rfl).2).1 (by decide +kernel)

/-! ## Example -/

/-- Mixins 1, 2, 3 with the features of `featDecls` and ids 2, 0, 4. -/
def memWorld : World := { initWorld (fun _ => {}) with
  featId := exFid, mixId := fun m => if m = 1 then some 2 else if m = 2 then some 0 else if m = 3 then some 4 else none
  mixDom := fun _ => some 0 }

/-- The block of a type with three mixins and four payloads: three entries of the feature table, the last with three payloads
of which the second is the last top bidder. -/
example : needOf (featDecls 3) memWorld [1, 3, 2] = 320 ∧
    ((typeBlock (featDecls 3) memWorld 0 [1, 3, 2]).toOption.map (fun b => [b.ftableAt 0, b.ftableAt 1, b.ftableAt 2]) =
      some [some (some ⟨[⟨1, 8, 300, 0, 0⟩], 0⟩), some none, some (some ⟨[⟨2, 7, 200, 5, 1⟩, ⟨1, 7, 301, 5, 3⟩, ⟨0, 7, 100, 0, 0⟩], 1⟩)]) ∧
    ((typeBlock (featDecls 3) memWorld 0 [1, 3, 2]).toOption.map (fun b => [b.indexOf 2, b.indexOf 3, b.indexOf 4, b.indexOf 9, b.mixinAt 2]) =
      some [some (some 0), some none, some (some 1), some none, some (some 2)]) ∧
    ((typeBlock (featDecls 3) memWorld 0 [1, 3, 2]).toOption.map (fun b => b.sizes.map (·.2.2)) = some (some 320)) := by decide +kernel

example : typeBlock (featDecls 1) memWorld 0 [1, 3, 2] = .error .featureClash :=
  C79_same_failure_partial (featDecls 1) memWorld 0 1 [1, 3, 2] .featureClash (by decide +kernel) (by decide +kernel) (by decide +kernel)

end Dnmx.Props
