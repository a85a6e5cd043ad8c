import Verif.Props.Memory

/-!
# C83: blocks for several elements

`allocator<T>::allocate(n)` multiplies without a check.
-/

namespace Dnmx.Props
open Spec

/-- What the default resource is asked for has less than 2^64 bytes if it was given less. -/
theorem ask_small (p : Platform) (bytes alignment : Nat) (hb : bytes < 2 ^ 64) (at' size : Nat) (h : defaultAllocate p bytes alignment = .block at' size) : size < 2 ^ 64 := by
  have ask : ∀ a, askAligned bytes a = .block at' size → size < 2 ^ 64 := by
    intro a ha
    unfold askAligned at ha
    split at ha
    · cases ha
    · obtain ⟨-, rfl⟩ := Asked.block.inj ha
      exact Nat.lt_of_lt_of_le (m := 2 ^ 32) (by unfold nextMultiple u32; exact Nat.mod_lt _ (by decide)) (by decide)
  cases p with
  | windows => obtain ⟨-, rfl⟩ := Asked.block.inj h; exact hb
  | apple => exact ask _ h
  | other => exact ask _ h

/-- C83: the block that `allocator<T>::allocate(n)` asks the default resource for is good for `n` elements exactly if the number of bytes can be told in 64 bits and, except on
Windows, the rounded number of bytes and the alignment in 32 bits. -/
theorem C83_elements_exactly (p : Platform) (n size alignment : Nat) (ha : ∃ k, alignment = 2 ^ k) :
    GoodBlock (n * size) alignment (askElements p n size alignment) ↔
      n * size < 2 ^ 64 ∧ (p = .windows ∨ (roundAlign p alignment < 2 ^ 32 ∧ rounded (n * size) (roundAlign p alignment) < 2 ^ 32)) := by
  by_cases hb : n * size < 2 ^ 64
  · unfold askElements
    rw [Nat.mod_eq_of_lt hb, C83_good_exactly p _ _ ha hb]
    exact ⟨fun h => ⟨hb, h⟩, fun h => h.2⟩
  · refine ⟨fun h => ?_, fun h => absurd h.1 hb⟩
    exfalso
    unfold askElements at h
    cases hx : defaultAllocate p (n * size % 2 ^ 64) alignment with
    | divByZero => rw [hx] at h; exact h
    | block at' s =>
      rw [hx] at h
      exact hb (Nat.lt_of_le_of_lt h.1 (ask_small p _ alignment (Nat.mod_lt _ (by decide)) at' s hx))

/-- C83 (partial: up to the maximal size of containers, and within the limits of the resource): containers get blocks that are big enough. -/
theorem C83_containers_partial (p : Platform) (n size alignment : Nat) (ha : ∃ k, alignment = 2 ^ k) (hn : n ≤ maxElements size)
    (hl : p = .windows ∨ (roundAlign p alignment < 2 ^ 32 ∧ rounded (n * size) (roundAlign p alignment) < 2 ^ 32)) :
    GoodBlock (n * size) alignment (askElements p n size alignment) := by
  refine (C83_elements_exactly p n size alignment ha).2 ⟨?_, hl⟩
  have h1 : n * size ≤ maxElements size * size := Nat.mul_le_mul_right _ hn
  have h2 : maxElements size * size ≤ 2 ^ 64 - 1 := Nat.div_mul_le_self _ _
  omega

-- a vector of 1000 pointers
example : GoodBlock 8000 8 (askElements .other 1000 8 8) :=
  C83_containers_partial .other 1000 8 8 ⟨3, rfl⟩ (by decide) (.inr ⟨by decide +kernel, by decide +kernel⟩)

/-- C83: who calls `allocate` for more elements gets too small a block, on all platforms: for 2^61 pointers nothing is asked for, for one more 8 bytes. -/
theorem C83_elements_refuted : askElements .windows (2 ^ 61) 8 8 = .block 8 0 ∧ askElements .other (2 ^ 61 + 1) 8 8 = .block 8 8 ∧
    ∀ p, ¬ GoodBlock (2 ^ 61 * 8) 8 (askElements p (2 ^ 61) 8 8) := by
  refine ⟨by decide +kernel, by decide +kernel, fun p h => ?_⟩
  have := ((C83_elements_exactly p (2 ^ 61) 8 8 ⟨3, rfl⟩).1 h).1
  omega

end Dnmx.Props
