import Verif.Proofs.LayoutExact

/-!
# C24, C25: object buffer and external mixin buffer layout

The sizes are 32-bit numbers and the code does not check for overflow; full statement of C24: for all mixin lists
with legal alignments the layout is sound. It is false when the sum exceeds 4 GiB (`C24_layout_overflow_refuted`).
-/

namespace Dnmx.Props
open Spec

/-- C24 (partial: exact memory need below 4 GiB): every internal mixin and its object pointer are inside the
buffer, aligned, behind the descriptors and disjoint from all others. -/
theorem C24_object_layout_sound_partial (ms : List MixDecl)
    (hl : ∀ m ∈ ms, m.external = false → LegalAlign m.align)
    (hb : exactSize ms < 2 ^ 32) :
    LayoutSound ms (layout ms).offsets (layout ms).size (layout ms).align :=
  layout_sound ms hl hb

/-- C24, exactly: the layout is sound if and only if the objects, with each mixin at the first possible place and
numbers without limits, have less than 4 GiB. There is no bigger object that is laid out well by luck. -/
theorem C24_layout_sound_exactly (ms : List MixDecl)
    (hl : ∀ m ∈ ms, m.external = false → LegalAlign m.align ∧ m.align < 2 ^ 32) :
    LayoutSound ms (layout ms).offsets (layout ms).size (layout ms).align ↔ exactSize ms < 2 ^ 32 :=
  layout_sound_iff ms hl

/-- C24: then the size of the buffer is the exact need, so no byte is wasted behind the last mixin. -/
theorem C24_layout_size (ms : List MixDecl) (hl : ∀ m ∈ ms, m.external = false → LegalAlign m.align)
    (hb : exactSize ms < 2 ^ 32) : (layout ms).size = exactSize ms :=
  layout_exact ms hl hb

/-- C24: it is enough that descriptors, sizes and twice the alignments are below 4 GiB in total. -/
theorem C24_enough_memory (ms : List MixDecl) (hb : 16 * ms.length + memoryNeed ms < 2 ^ 32) : exactSize ms < 2 ^ 32 :=
  Nat.lt_of_le_of_lt (exactEnd_bound ms (16 * ms.length)) hb

/-- C24 is false without the size limit: two internal mixins of 4 GiB - 64 bytes share addresses. -/
theorem C24_layout_overflow_refuted :
    let ms : List MixDecl := [{ name := ⟨0, 0⟩, size := 4294967232, align := 8 }, { name := ⟨0, 0⟩, size := 4294967232, align := 8 }]
    (∀ m ∈ ms, m.external = false → LegalAlign m.align) ∧
    ¬ LayoutSound ms (layout ms).offsets (layout ms).size (layout ms).align := by
  intro ms
  refine ⟨?_, ?_⟩
  · intro m hm _
    have : m.align = 8 := by
      rcases List.mem_cons.1 hm with h | h
      · rw [h]
      · simp at h; rw [h]
    exact .inr ⟨3, this⟩
  · intro h
    have h1 : (layout ms).offsets[0]? = some 40 := by decide +kernel
    have hs : (layout ms).size = 4294967216 := by decide +kernel
    have := (h.inside 0 (by decide) 40 rfl h1).2.2
    rw [hs] at this
    exact absurd this (by decide)

/-- A mix of alignments, an external and an empty mixin meets the hypotheses. -/
example :
    let ms : List MixDecl := [{ name := ⟨0, 0⟩, size := 5, align := 1 }, { name := ⟨0, 0⟩, size := 64, align := 32 },
      { name := ⟨0, 0⟩, size := 100, align := 4, forceExternal := true }, { name := ⟨0, 0⟩ }, { name := ⟨0, 0⟩, size := 16, align := 16 }]
    (∀ m ∈ ms, m.external = false → LegalAlign m.align ∧ m.align < 2 ^ 32) ∧
    16 * ms.length + memoryNeed ms < 2 ^ 32 ∧ exactSize ms = 224 ∧
    layout ms = ⟨[88, 128, 0, 200, 208], 224, 32⟩ := by
  intro ms
  refine ⟨?_, by decide +kernel, by decide +kernel, by decide +kernel⟩
  intro m hm _
  simp [ms] at hm
  rcases hm with h | h | h | h | h <;> subst h
  · exact ⟨.inr ⟨0, rfl⟩, by decide⟩
  · exact ⟨.inr ⟨5, rfl⟩, by decide⟩
  · exact ⟨.inr ⟨2, rfl⟩, by decide⟩
  · exact ⟨.inl rfl, by decide⟩
  · exact ⟨.inr ⟨4, rfl⟩, by decide⟩

/-- The biggest object: one mixin that ends at the last byte below 4 GiB; with one byte more the buffer is empty. -/
example : exactSize [{ name := ⟨0, 0⟩, size := 4294967271, align := 8 }] = 2 ^ 32 - 1 ∧
    layout [{ name := ⟨0, 0⟩, size := 4294967271, align := 8 }] = ⟨[24], 4294967295, 8⟩ ∧
    exactSize [{ name := ⟨0, 0⟩, size := 4294967272, align := 8 }] = 2 ^ 32 ∧
    layout [{ name := ⟨0, 0⟩, size := 4294967272, align := 8 }] = ⟨[24], 0, 8⟩ := by
  refine ⟨?_, ?_, ?_, ?_⟩ <;> decide +kernel

/-- C25 (partial: size plus alignment below 4 GiB): in a separately allocated buffer of `objBufSize` bytes at an
address divisible by `objBufOffset`, the mixin at `objBufOffset` fits, is aligned, and the 8 bytes before it are
inside and aligned for the object pointer. -/
theorem C25_external_layout_sound_partial (m : MixDecl) (s a base : Nat) (ha : LegalAlign a) (hb : s + max a 8 < 2 ^ 32)
    (hbase : (setSizeAndAlignment m s a).objBufOffset ∣ base) :
    let m' := setSizeAndAlignment m s a
    m'.size = s ∧ m'.align = a ∧ 8 ≤ m'.objBufOffset ∧ (∃ k, m'.objBufOffset = 2 ^ k) ∧
    m'.objBufOffset + s ≤ m'.objBufSize ∧
    (a ≠ 0 → a ∣ base + m'.objBufOffset) ∧ 8 ∣ base + m'.objBufOffset - 8 := by
  intro m'
  by_cases h8 : a < 8
  · have hm : m' = { m with size := s, align := a, objBufSize := s + 8, objBufOffset := 8 } := by
      simp only [m', setSizeAndAlignment, sizeofPtr, h8, if_true]
      rw [u32_of_lt (by omega)]
    have hbase' : 8 ∣ base := by
      have : (setSizeAndAlignment m s a).objBufOffset = 8 := by rw [show setSizeAndAlignment m s a = m' from rfl, hm]
      rw [this] at hbase; exact hbase
    rw [hm]
    refine ⟨rfl, rfl, by simp, ⟨3, rfl⟩, by simp; omega, fun hne => ?_, by simp [hbase']⟩
    have hp : Pow2 a := by
      rcases ha with h | h
      · exact absurd h hne
      · exact h
    have : a ∣ 8 := pow2_dvd hp ⟨3, rfl⟩ (by omega)
    exact Nat.dvd_add (Nat.dvd_trans this hbase') this
  · have hm : m' = { m with size := s, align := a, objBufSize := s + a, objBufOffset := a } := by
      simp only [m', setSizeAndAlignment, sizeofPtr, h8, if_false]
      rw [u32_of_lt (by omega)]
    have hbase' : a ∣ base := by
      have : (setSizeAndAlignment m s a).objBufOffset = a := by rw [show setSizeAndAlignment m s a = m' from rfl, hm]
      rw [this] at hbase; exact hbase
    have hp : Pow2 a := by
      rcases ha with h | h
      · omega
      · exact h
    have h8a : 8 ∣ a := pow2_dvd ⟨3, rfl⟩ hp (by omega)
    rw [hm]
    refine ⟨rfl, rfl, by simp; omega, hp, by simp; omega, fun _ => Nat.dvd_add hbase' (Nat.dvd_refl _), ?_⟩
    simp only
    have : base + a - 8 = base + (a - 8) := by omega
    rw [this]
    exact Nat.dvd_add (Nat.dvd_trans h8a hbase') (Nat.dvd_sub h8a (Nat.dvd_refl 8))

/-- C25, exactly: the mixin fits into the separately allocated buffer if and only if its size plus the offset is
below 4 GiB. -/
theorem C25_external_fits_exactly (m : MixDecl) (s a : Nat) :
    (setSizeAndAlignment m s a).objBufOffset + s ≤ (setSizeAndAlignment m s a).objBufSize ↔ s + max a 8 < 2 ^ 32 := by
  have hle : ∀ n, u32 n ≤ n := fun n => Nat.mod_le _ _
  have hlt : ∀ n, u32 n < 4294967296 := u32_lt
  by_cases h8 : a < 8
  · have := hle (s + 8)
    have := hlt (s + 8)
    simp only [setSizeAndAlignment, sizeofPtr, h8, if_true]
    constructor
    · intro h; omega
    · intro h; rw [u32_of_lt (by omega)]; omega
  · have := hle (s + a)
    have := hlt (s + a)
    simp only [setSizeAndAlignment, sizeofPtr, h8, if_false]
    constructor
    · intro h; omega
    · intro h; rw [u32_of_lt (by omega)]; omega

/-- C25 is false without the limit: a 4 GiB - 4 bytes mixin gets a 4 byte buffer. -/
theorem C25_external_layout_overflow_refuted :
    (setSizeAndAlignment { name := ⟨0, 0⟩ } 4294967292 8).objBufSize = 4 := by decide +kernel

/-- The defaults of `dnmx_make_mixin_info` (code/dnmx/mixin_info.h 155-161) are those of an empty mixin. -/
theorem C25_default_layout (m : MixDecl) (h : m.objBufSize = 8) (h' : m.objBufOffset = 8) (hs : m.size = 0) (ha : m.align = 0) :
    setSizeAndAlignment m 0 0 = m := by
  have : u32 8 = 8 := by decide
  cases m; simp_all [setSizeAndAlignment, sizeofPtr]

/-- Non-trivial sizes meet the hypotheses. -/
example : LegalAlign 64 ∧ 100 + max 64 8 < 2 ^ 32 ∧
    (setSizeAndAlignment { name := ⟨0, 0⟩ } 100 64).objBufOffset ∣ 128 ∧
    (setSizeAndAlignment { name := ⟨0, 0⟩ } 100 64).objBufSize = 164 :=
  ⟨.inr ⟨6, rfl⟩, by decide, by decide, by decide⟩

end Dnmx.Props
