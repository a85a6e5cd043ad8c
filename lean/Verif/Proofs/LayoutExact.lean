import Verif.Proofs.LayoutLemmas

/-! # Object layouts are sound only below 4 GiB -/

namespace Dnmx
open Spec

set_option linter.unusedSimpArgs false
set_option linter.unusedVariables false

theorem u32_lt (n : Nat) : u32 n < 4294967296 := Nat.mod_lt _ (by decide)

theorem layoutLoop_size_lt : ∀ (ms : List MixDecl) (size align : Nat), size < 4294967296 →
    (layoutLoop ms size align).size < 4294967296
  | [], _, _, h => h
  | m :: ms, size, align, h => by
    unfold layoutLoop
    split
    · exact layoutLoop_size_lt ms size align h
    · exact layoutLoop_size_lt ms _ _ (u32_lt _)

theorem layoutLoop_ext {m : MixDecl} (h : m.external = true) (ms : List MixDecl) (size align : Nat) :
    layoutLoop (m :: ms) size align =
      ⟨0 :: (layoutLoop ms size align).offsets, (layoutLoop ms size align).size, (layoutLoop ms size align).align⟩ := by
  rw [layoutLoop, if_pos h]

theorem layoutLoop_int {m : MixDecl} (h : m.external = false) (ms : List MixDecl) (size align : Nat) :
    ∃ off align', ∀ n, n = u32 (off + m.size) → layoutLoop (m :: ms) size align =
      ⟨off :: (layoutLoop ms n align').offsets, (layoutLoop ms n align').size, (layoutLoop ms n align').align⟩ := by
  rcases ha : layoutAlign m align with ⟨ma, align'⟩
  refine ⟨u32 (size + layoutPadding size ma), align', fun n hn => ?_⟩
  rw [layoutLoop, if_neg (by simp [h]), ha, hn]

theorem layoutLoop_externals : ∀ (ms : List MixDecl) (s a : Nat),
    (∀ (k : Nat) (hk : k < ms.length), (ms[k]'hk).external = true) → (layoutLoop ms s a).size = s
  | [], _, _, _ => rfl
  | m :: ms, s, a, h => by
    rw [layoutLoop_ext (m := m) (h 0 (by simp))]
    exact layoutLoop_externals ms s a (fun k hk => h (k + 1) (by simpa using hk))

/-- the size is the end of the last internal mixin -/
theorem layoutLoop_last : ∀ (ms : List MixDecl) (size align : Nat) (j : Nat) (hj : j < ms.length),
    (ms[j]'hj).external = false →
    ∃ (L : Nat) (hL : L < ms.length) (off n : Nat), (ms[L]'hL).external = false ∧ j ≤ L ∧
      (layoutLoop ms size align).offsets[L]? = some off ∧
      (layoutLoop ms size align).size = n ∧ n = u32 (off + (ms[L]'hL).size) := by
  intro ms
  induction ms with
  | nil => intro _ _ j hj; simp at hj
  | cons m ms ih =>
    intro size align j hj hint
    by_cases hin : ∃ (k : Nat) (hk : k < ms.length), (ms[k]'hk).external = false ∧ j ≤ k + 1
    · obtain ⟨k, hk, hki, hjk⟩ := hin
      cases hext : m.external with
      | true =>
        obtain ⟨L, hL, off, n, h1, h2, h3, h4, h5⟩ := ih size align k hk hki
        rw [layoutLoop_ext hext]
        exact ⟨L + 1, by simpa using hL, off, n, h1, by omega, h3, h4, h5⟩
      | false =>
        obtain ⟨o, a', hcons⟩ := layoutLoop_int hext ms size align
        generalize hn : u32 (o + m.size) = n' at hcons
        obtain ⟨L, hL, off, n, h1, h2, h3, h4, h5⟩ := ih n' a' k hk hki
        rw [hcons n' rfl]
        exact ⟨L + 1, by simpa using hL, off, n, h1, by omega, h3, h4, h5⟩
    · have hj0 : j = 0 := by
        rcases j with _ | j
        · rfl
        · exact absurd ⟨j, by simpa using hj, by simpa using hint, Nat.le_refl _⟩ hin
      subst hj0
      have hext : m.external = false := hint
      obtain ⟨o, a', hcons⟩ := layoutLoop_int hext ms size align
      generalize hn : u32 (o + m.size) = n' at hcons
      rw [hcons n' rfl]
      refine ⟨0, by simp, o, n', hext, Nat.le_refl _, rfl, ?_, hn.symm⟩
      apply layoutLoop_externals
      intro k hk
      cases hk' : (ms[k]'hk).external with
      | true => rfl
      | false => exact absurd ⟨k, hk, hk', Nat.zero_le _⟩ hin

/-- sound offsets are the exact ones -/
theorem layoutLoop_converse (T : Nat) (hT : T < 4294967296) : ∀ (ms : List MixDecl) (size align : Nat), 8 ≤ align →
    (∀ m ∈ ms, m.external = false → LegalAlign m.align ∧ m.align < 4294967296) → size < 4294967296 →
    (∀ (i : Nat) (h : i < ms.length), (ms[i]'h).external = false → size + 8 < 4294967296) →
    (∀ (i : Nat) (h : i < ms.length) (off : Nat), (ms[i]'h).external = false →
      (layoutLoop ms size align).offsets[i]? = some off → 8 ≤ off ∧ off + (ms[i]'h).size ≤ T) →
    (∀ (i j : Nat) (hi : i < ms.length) (hj : j < ms.length) (oi : Nat), i < j → (ms[i]'hi).external = false →
      (ms[j]'hj).external = false → (layoutLoop ms size align).offsets[i]? = some oi →
      oi + (ms[i]'hi).size + 8 < 4294967296) →
    exactEnd ms size < 4294967296 := by
  intro ms
  induction ms with
  | nil => intro size align _ _ h _ _ _; exact h
  | cons m ms ih =>
    intro size align h8 hl hs hroom hin hgap
    have hl' : ∀ x ∈ ms, x.external = false → LegalAlign x.align ∧ x.align < 4294967296 :=
      fun x hx => hl x (by simp [hx])
    cases hext : m.external with
    | true =>
      simp only [exactEnd, hext, if_true]
      simp only [layoutLoop, hext, if_true] at hin hgap
      refine ih size align h8 hl' hs (fun i h he => hroom (i + 1) (by simpa using h) (by simpa using he)) ?_ ?_
      · intro i h off he ho
        have := hin (i + 1) (by simpa using h) off (by simpa using he) (by simpa using ho)
        simpa using this
      · intro i j hi hj oi hij hei hej ho
        have := hgap (i + 1) (j + 1) (by simpa using hi) (by simpa using hj) oi (by omega) (by simpa using hei)
          (by simpa using hej) (by simpa using ho)
        simpa using this
    | false =>
      simp only [exactEnd, hext, Bool.false_eq_true, if_false]
      simp only [layoutLoop, hext, layoutAlign_spec m align h8, Bool.false_eq_true, if_false] at hin hgap
      have heff : effAlign m = max m.align 8 := rfl
      obtain ⟨hml, hmlt⟩ := hl m (by simp) hext
      have hma8 : 8 ≤ effAlign m := by rw [heff]; omega
      have hlt : effAlign m < 4294967296 := by rw [heff]; omega
      have hd := pow2_dvd_u32 (effAlign_pow2 hml) hlt
      rw [← heff]
      rw [layoutPadding_exact hma8 hd hlt hs] at hin hgap
      obtain ⟨p1, p2, p3⟩ := placeAfter_spec size (ma := effAlign m) (by omega)
      have hr := hroom 0 (by simp) (by simpa using hext)
      have h0 := hin 0 (by simp) _ (by simpa using hext) rfl
      simp only [List.getElem_cons_zero] at h0
      have hpl : placeAfter size (effAlign m) < 4294967296 := by
        apply Decidable.byContradiction
        intro hc
        have : placeAfter size (effAlign m) = 4294967296 := by
          obtain ⟨a, ha⟩ := p1
          obtain ⟨b, hb⟩ := hd
          have h1 : a ≤ b := by
            apply Decidable.byContradiction
            intro h'
            have := Nat.mul_le_mul_left (effAlign m) (show b + 1 ≤ a by omega)
            rw [Nat.mul_add] at this
            omega
          have h2 := Nat.mul_le_mul_left (effAlign m) h1
          omega
        rw [this] at h0
        have : u32 4294967296 = 0 := by decide
        omega
      rw [u32_of_lt hpl] at hin hgap h0
      rw [u32_of_lt (n := placeAfter size (effAlign m) + m.size) (by omega)] at hin hgap
      refine ih _ (max align m.align) (by omega) hl' (by omega) ?_ ?_ ?_
      · intro i h he
        have := hgap 0 (i + 1) (by simp) (by simpa using h) _ (by omega) (by simpa using hext) (by simpa using he) rfl
        simpa using this
      · intro i h off he ho
        have := hin (i + 1) (by simpa using h) off (by simpa using he) (by simpa using ho)
        simpa using this
      · intro i j hi hj oi hij hei hej ho
        have := hgap (i + 1) (j + 1) (by simpa using hi) (by simpa using hj) oi (by omega) (by simpa using hei)
          (by simpa using hej) (by simpa using ho)
        simpa using this

theorem layout_sound_converse (ms : List MixDecl)
    (hl : ∀ m ∈ ms, m.external = false → LegalAlign m.align ∧ m.align < 4294967296)
    (h : LayoutSound ms (layout ms).offsets (layout ms).size (layout ms).align) : exactSize ms < 4294967296 := by
  have hlt : (layout ms).size < 4294967296 := layoutLoop_size_lt ms _ _ (u32_lt _)
  have hhead := h.header
  have hbase : u32 (ms.length * sizeofMixinData) = 16 * ms.length := by
    rw [sizeofMixinData, u32_of_lt (by omega)]; omega
  unfold layout at h hlt hhead
  rw [hbase, sizeofPtr] at h hlt hhead
  unfold exactSize
  refine layoutLoop_converse _ hlt ms (16 * ms.length) 8 (by omega) hl (by omega) ?_ ?_ ?_
  · intro i hi he
    have hlen : i < (layoutLoop ms (16 * ms.length) 8).offsets.length := by rw [h.length]; exact hi
    have := h.inside i hi _ he (List.getElem?_eq_getElem hlen)
    omega
  · intro i hi off he ho
    exact (h.inside i hi off he ho).2
  · intro i j hi hj oi hij hei hej ho
    obtain ⟨L, hL, oL, n, l1, l2, l3, l4, l5⟩ := layoutLoop_last ms (16 * ms.length) 8 j hj hej
    have hI := h.inside i hi oi hei ho
    have hLi := h.inside L hL oL l1 l3
    have hd := h.disjoint i L hi hL oi oL (by omega) hei l1 ho l3
    have hu : u32 (oL + (ms[L]'hL).size) ≤ oL + (ms[L]'hL).size := Nat.mod_le _ _
    omega

theorem layout_sound_iff (ms : List MixDecl)
    (hl : ∀ m ∈ ms, m.external = false → LegalAlign m.align ∧ m.align < 4294967296) :
    LayoutSound ms (layout ms).offsets (layout ms).size (layout ms).align ↔ exactSize ms < 4294967296 :=
  ⟨layout_sound_converse ms hl, layout_sound ms (fun m hm he => (hl m hm he).1)⟩

/-- sound layouts have exactly the exact size -/
theorem layoutLoop_exact : ∀ (ms : List MixDecl) (size align : Nat), 8 ≤ align →
    (∀ m ∈ ms, m.external = false → LegalAlign m.align) → exactEnd ms size < 4294967296 →
    (layoutLoop ms size align).size = exactEnd ms size := by
  intro ms
  induction ms with
  | nil => intros; rfl
  | cons m ms ih =>
    intro size align h8 hl hb
    have hl' : ∀ m ∈ ms, m.external = false → LegalAlign m.align := fun x hx => hl x (by simp [hx])
    cases hext : m.external with
    | true =>
      simp only [exactEnd, layoutLoop, hext, if_true] at hb ⊢
      exact ih size align h8 hl' hb
    | false =>
      simp only [exactEnd, layoutLoop, hext, layoutAlign_spec m align h8, Bool.false_eq_true, if_false] at hb ⊢
      have heff : effAlign m = max m.align 8 := rfl
      have hml := hl m (by simp) hext
      rw [← heff] at hb ⊢
      have hma8 : 8 ≤ effAlign m := by rw [heff]; omega
      have hle := exactEnd_le ms (placeAfter size (effAlign m) + m.size)
      obtain ⟨p1, p2, p3⟩ := placeAfter_spec size (ma := effAlign m) (by omega)
      have hlt : effAlign m < 4294967296 := by
        have := Nat.le_of_dvd (by omega) p1
        omega
      rw [layoutPadding_exact hma8 (pow2_dvd_u32 (effAlign_pow2 hml) hlt) hlt (by omega),
        u32_of_lt (n := placeAfter size (effAlign m)) (by omega),
        u32_of_lt (n := placeAfter size (effAlign m) + m.size) (by omega)]
      exact ih _ _ (by omega) hl' hb

theorem layout_exact (ms : List MixDecl) (hl : ∀ m ∈ ms, m.external = false → LegalAlign m.align)
    (hb : exactSize ms < 4294967296) : (layout ms).size = exactSize ms := by
  unfold exactSize at hb ⊢
  have := exactEnd_le ms (16 * ms.length)
  unfold layout
  rw [sizeofMixinData, sizeofPtr, u32_of_lt (by omega), Nat.mul_comm]
  exact layoutLoop_exact ms _ _ (by omega) hl hb

end Dnmx
