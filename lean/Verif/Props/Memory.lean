import Verif.Proofs.MemoryLemmas

/-!
# The default memory resource (C83)
-/

namespace Dnmx.Props
open Spec

/-- The alignment with which the size is rounded. -/
def roundAlign (p : Platform) (alignment : Nat) : Nat := if p = .apple then max alignment 8 else alignment

theorem roundAlign_pow2 {p : Platform} {a : Nat} (h : Pow2 a) : Pow2 (roundAlign p a) := by
  unfold roundAlign
  split
  · exact max_pow2 h (.inr ⟨3, rfl⟩)
  · exact h

theorem defaultAllocate_eq {p : Platform} (hw : p ≠ .windows) (bytes a : Nat) :
    defaultAllocate p bytes a = askAligned bytes (roundAlign p a) := by
  cases p with
  | windows => exact absurd rfl hw
  | other => rfl
  | apple =>
    simp only [defaultAllocate, roundAlign, if_true]
    have h8 : sizeofPtr = 8 := rfl
    rw [h8]
    by_cases h : a < 8
    · rw [if_pos h, Nat.max_eq_right (by omega)]
    · rw [if_neg h, Nat.max_eq_left (by omega)]

/-- C83, exactly: the default resource asks for a block that is big enough and aligned if and only if (other than on
Windows) the alignment and the size rounded up to a multiple of it are below 4 GiB. -/
theorem C83_good_exactly (p : Platform) (bytes alignment : Nat) (ha : ∃ k, alignment = 2 ^ k) (hb : bytes < 2 ^ 64) :
    GoodBlock bytes alignment (defaultAllocate p bytes alignment) ↔
      (p = .windows ∨ (roundAlign p alignment < 2 ^ 32 ∧ rounded bytes (roundAlign p alignment) < 2 ^ 32)) := by
  by_cases hw : p = .windows
  · subst hw
    simp [defaultAllocate, GoodBlock]
  · rw [defaultAllocate_eq hw]
    have hp : Pow2 (roundAlign p alignment) := roundAlign_pow2 ha
    have hdvd : alignment ∣ roundAlign p alignment := by
      unfold roundAlign
      split
      · exact pow2_dvd ha (max_pow2 ha (.inr ⟨3, rfl⟩)) (by omega)
      · exact Nat.dvd_refl _
    have := askAligned_good hp bytes hb
    simp only [hw, false_or]
    rw [← this]
    cases h : askAligned bytes (roundAlign p alignment) with
    | divByZero => rfl
    | block at' size =>
      by_cases hlt : roundAlign p alignment < 4294967296
      · rw [askAligned_pow2 hp hlt] at h
        simp only [Asked.block.injEq] at h
        obtain ⟨h1, h2⟩ := h
        subst h1
        simp [GoodBlock, hdvd]
      · rw [askAligned_big hp (by omega)] at h
        simp at h

/-- C83 (partial: rounded sizes below 4 GiB): blocks are big enough and aligned, less than one alignment bigger than
asked for, and the call of `aligned_alloc` is a proper one. -/
theorem C83_good_partial (p : Platform) (bytes alignment : Nat) (ha : ∃ k, alignment = 2 ^ k)
    (hlt : alignment < 2 ^ 32) (hr : bytes + max alignment 8 ≤ 2 ^ 32) :
    ∃ at' size, defaultAllocate p bytes alignment = .block at' size ∧ bytes ≤ size ∧ alignment ∣ at' ∧
      size < bytes + max alignment 8 ∧ (p ≠ .windows → ProperCall (.block at' size)) := by
  by_cases hw : p = .windows
  · subst hw
    exact ⟨alignment, bytes, rfl, Nat.le_refl _, Nat.dvd_refl _, by omega, fun h => absurd rfl h⟩
  · have hp : Pow2 (roundAlign p alignment) := roundAlign_pow2 ha
    have h0 := pow2_pos hp
    have hle : roundAlign p alignment ≤ max alignment 8 := by unfold roundAlign; split <;> omega
    obtain ⟨r1, r2, r3⟩ := roundUp_spec bytes h0
    have hl : roundAlign p alignment < 4294967296 := by unfold roundAlign; split <;> omega
    rw [defaultAllocate_eq hw, askAligned_pow2 hp hl]
    have hrl : rounded bytes (roundAlign p alignment) < 4294967296 := by unfold rounded; omega
    rw [u32_of_lt hrl]
    refine ⟨_, _, rfl, r2, ?_, ?_, fun _ => r1⟩
    · unfold roundAlign
      split
      · exact pow2_dvd ha (max_pow2 ha (.inr ⟨3, rfl⟩)) (by omega)
      · exact Nat.dvd_refl _
    · unfold rounded; omega

/-- C83 is false without the limit: who asks for 4 GiB and gets a block, gets one without any byte, and who asks for
17 bytes more than 4 GiB gets 32. -/
theorem C83_truncated_refuted : defaultAllocate .other 4294967296 16 = .block 16 0 ∧
    defaultAllocate .other 4294967313 16 = .block 16 32 ∧ defaultAllocate .other 4294967290 16 = .block 16 0 ∧
    ¬ GoodBlock 4294967296 16 (defaultAllocate .other 4294967296 16) := by
  refine ⟨by decide +kernel, by decide +kernel, by decide +kernel, ?_⟩
  rw [show defaultAllocate .other 4294967296 16 = .block 16 0 by decide +kernel]
  simp [GoodBlock]

/-- C83: alignments of 4 GiB or more are a division by zero. -/
theorem C83_huge_alignment_refuted (p : Platform) (hw : p ≠ .windows) (bytes alignment : Nat)
    (ha : ∃ k, alignment = 2 ^ k) (h : 2 ^ 32 ≤ alignment) : defaultAllocate p bytes alignment = .divByZero := by
  rw [defaultAllocate_eq hw]
  refine askAligned_big (roundAlign_pow2 ha) ?_ bytes
  unfold roundAlign; split <;> omega

/-- C83: nothing is asked for but a block or nothing (a request of zero bytes asks for zero bytes, for which the C
library may return null, which is thrown as `std::bad_alloc`). -/
theorem C83_zero_bytes (p : Platform) (alignment : Nat) (ha : ∃ k, alignment = 2 ^ k) (hlt : alignment < 2 ^ 32) :
    ∃ at', defaultAllocate p 0 alignment = .block at' 0 := by
  by_cases hw : p = .windows
  · subst hw; exact ⟨alignment, rfl⟩
  · have hl : roundAlign p alignment < 4294967296 := by unfold roundAlign; split <;> omega
    have hp := roundAlign_pow2 (p := p) ha
    refine ⟨roundAlign p alignment, ?_⟩
    rw [defaultAllocate_eq hw, askAligned_pow2 hp hl]
    have : rounded 0 (roundAlign p alignment) = 0 := by
      have h0 := pow2_pos hp
      unfold rounded
      rw [Nat.div_eq_of_lt (by omega), Nat.zero_mul]
    rw [this]; rfl

/-- C83: null from the C library, or from the C function of an allocator of mixins, is never returned. -/
theorem C83_null_is_thrown (ret : Option Nat) (p : Nat) : orBadAlloc ret = .ok p ↔ ret = some p := by
  cases ret <;> simp [orBadAlloc]

/-- C83 (partial: see the limits): every internal mixin of an object and its object pointer are inside the block that
the default resource is asked for, aligned, and disjoint from all others. -/
theorem C83_objects_fit_partial (p : Platform) (ms : List MixDecl)
    (hl : ∀ m ∈ ms, m.external = false → LegalAlign m.align ∧ m.align < 2 ^ 32)
    (hb : exactSize ms < 2 ^ 32) (hr : rounded (exactSize ms) (layout ms).align < 2 ^ 32) :
    ∃ at' size, askObjectBuffer p ms = .block at' size ∧ LayoutSound ms (layout ms).offsets size at' := by
  have hs := layout_sound ms (fun m hm he => (hl m hm he).1) hb
  have hsz := layout_exact ms (fun m hm he => (hl m hm he).1) hb
  have hal : (layout ms).align < 4294967296 :=
    layoutLoop_align_lt ms _ _ (by decide) (fun m hm he => (hl m hm he).2)
  have hra : roundAlign p (layout ms).align = (layout ms).align := by
    have := hs.alignment.1
    unfold roundAlign; split <;> omega
  by_cases hw : p = .windows
  · subst hw
    exact ⟨_, _, rfl, hs⟩
  · have hp : Pow2 (layout ms).align := hs.alignment.2
    refine ⟨(layout ms).align, rounded (exactSize ms) (layout ms).align, ?_, ?_⟩
    · unfold askObjectBuffer
      rw [defaultAllocate_eq hw, hra, askAligned_pow2 hp hal, hsz, u32_of_lt hr]
    · have hle := (roundUp_spec (exactSize ms) (pow2_pos hp)).2.1
      change exactSize ms ≤ rounded (exactSize ms) (layout ms).align at hle
      rw [← hsz] at hle
      rw [← hsz]
      refine ⟨hs.length, hs.alignment, Nat.le_trans hs.header hle, hs.externals, ?_, hs.aligned, hs.disjoint⟩
      intro i h off he ho
      have := hs.inside i h off he ho
      exact ⟨this.1, this.2.1, by omega⟩

/-- The second limit is needed: the layout of objects with this mixin is sound, and the default resource is asked for
a block without any byte for them. -/
theorem C83_object_needed :
    let ms : List MixDecl := [{ name := ⟨0, 0⟩, size := 4294967224, align := 64 }]
    exactSize ms < 2 ^ 32 ∧ LayoutSound ms (layout ms).offsets (layout ms).size (layout ms).align ∧
    askObjectBuffer .other ms = .block 64 0 := by
  intro ms
  have h1 : exactSize ms < 2 ^ 32 := by decide +kernel
  refine ⟨h1, layout_sound ms ?_ h1, by decide +kernel⟩
  intro m hm _
  simp [ms] at hm
  subst hm
  exact .inr ⟨6, rfl⟩

/-- An object with two mixins and alignment 32. -/
example :
    let ms : List MixDecl := [{ name := ⟨0, 0⟩, size := 5, align := 1 }, { name := ⟨0, 0⟩, size := 70, align := 32 }]
    exactSize ms = 134 ∧ rounded 134 (layout ms).align = 160 ∧ askObjectBuffer .other ms = .block 32 160 ∧
    askObjectBuffer .windows ms = .block 32 134 ∧ defaultAllocate .apple 13 4 = .block 8 16 ∧
    defaultAllocate .other 13 4 = .block 4 16 := by
  refine ⟨?_, ?_, ?_, ?_, ?_, ?_⟩ <;> decide +kernel

end Dnmx.Props
