import Verif.Model.TypeBuild
import Verif.Spec.Layout

namespace Dnmx
open Spec

theorem u32_of_lt {n : Nat} (h : n < 4294967296) : u32 n = n := Nat.mod_eq_of_lt h

theorem nextMultiple_spec {s n : Nat} (hn : 0 < n) (h : s + n < 4294967296) :
    n ∣ nextMultiple s n ∧ s ≤ nextMultiple s n ∧ nextMultiple s n ≤ s + n - 1 := by
  unfold nextMultiple
  rw [u32_of_lt (n := s + n - 1) (by omega)]
  have h1 : (s + n - 1) / n * n ≤ s + n - 1 := Nat.div_mul_le_self ..
  have h2 : s + n - 1 < ((s + n - 1) / n + 1) * n := by
    have := Nat.lt_div_mul_add (a := s + n - 1) hn
    rw [Nat.add_mul]; omega
  rw [u32_of_lt (by omega)]
  refine ⟨Nat.dvd_mul_left .., ?_, h1⟩
  rw [Nat.add_mul] at h2
  omega

theorem layoutPadding_spec {size ma : Nat} (hma : 8 ≤ ma) (h : size + 2 * ma < 4294967296) :
    ma ∣ size + layoutPadding size ma ∧ 8 ≤ layoutPadding size ma ∧ layoutPadding size ma < 2 * ma := by
  obtain ⟨h1, h2, h3⟩ := nextMultiple_spec (s := size) (n := ma) (by omega) (by omega)
  unfold layoutPadding
  have hp : u32 (nextMultiple size ma + 4294967296 - size) = nextMultiple size ma - size := by
    unfold u32; omega
  simp only [hp, sizeofPtr]
  split
  · rw [u32_of_lt (by omega)]
    refine ⟨?_, by omega, by omega⟩
    have : size + (nextMultiple size ma - size + ma) = nextMultiple size ma + ma := by omega
    rw [this]
    exact Nat.dvd_add h1 (Nat.dvd_refl _)
  · refine ⟨?_, by omega, by omega⟩
    have : size + (nextMultiple size ma - size) = nextMultiple size ma := by omega
    rw [this]; exact h1

/-- effective alignment: a power of two of at least 8 -/
def effAlign (m : MixDecl) : Nat := max m.align 8

theorem layoutAlign_spec (m : MixDecl) (align : Nat) (ha : 8 ≤ align) :
    layoutAlign m align = (effAlign m, max align m.align) := by
  unfold layoutAlign effAlign sizeofPtr
  split
  · simp; omega
  · split
    · simp; omega
    · simp; omega

def Pow2 (n : Nat) : Prop := ∃ k, n = 2 ^ k

theorem pow2_dvd {a b : Nat} (ha : Pow2 a) (hb : Pow2 b) (h : a ≤ b) : a ∣ b := by
  obtain ⟨i, rfl⟩ := ha
  obtain ⟨j, rfl⟩ := hb
  exact Nat.pow_dvd_pow 2 ((Nat.pow_le_pow_iff_right (by decide)).1 h)

theorem effAlign_pow2 {m : MixDecl} (h : LegalAlign m.align) : Pow2 (effAlign m) := by
  unfold effAlign
  rcases h with h | ⟨k, h⟩
  · rw [h]; exact ⟨3, rfl⟩
  · by_cases h8 : m.align ≤ 8
    · rw [Nat.max_eq_right h8]; exact ⟨3, rfl⟩
    · rw [Nat.max_eq_left (by omega)]; exact ⟨k, h⟩

theorem max_pow2 {a b : Nat} (ha : Pow2 a) (hb : LegalAlign b) : Pow2 (max a b) := by
  by_cases h : b ≤ a
  · rw [Nat.max_eq_left h]; exact ha
  · rw [Nat.max_eq_right (by omega)]
    rcases hb with hb | hb
    · omega
    · exact hb

/-- what one pass over the mixins establishes, from a given size on -/
structure LoopSound (ms : List MixDecl) (size align : Nat) (L : Layout) : Prop where
  len : L.offsets.length = ms.length
  sizeLe : size ≤ L.size
  bound : L.size ≤ size + memoryNeed ms
  alignLe : align ≤ L.align
  pow : Pow2 L.align
  each : ∀ (i : Nat) (h : i < ms.length), ∃ off, L.offsets[i]? = some off ∧
    ((ms[i]'h).external = true → off = 0) ∧
    ((ms[i]'h).external = false → size + 8 ≤ off ∧ off + (ms[i]'h).size ≤ L.size ∧
      effAlign (ms[i]'h) ∣ off ∧ (ms[i]'h).align ≤ L.align)
  disj : ∀ (i j : Nat) (hi : i < ms.length) (hj : j < ms.length) (oi oj : Nat), i < j →
    (ms[i]'hi).external = false → (ms[j]'hj).external = false → L.offsets[i]? = some oi → L.offsets[j]? = some oj →
    oi + (ms[i]'hi).size + 8 ≤ oj

theorem multiple_unique {d a b x : Nat} (ha : d ∣ a) (hb : d ∣ b) (h1 : x ≤ a) (h2 : a < x + d) (h3 : x ≤ b)
    (h4 : b < x + d) : a = b := by
  obtain ⟨i, rfl⟩ := ha
  obtain ⟨j, rfl⟩ := hb
  rcases Nat.lt_trichotomy i j with h | h | h
  · have := Nat.mul_le_mul_left d (show i + 1 ≤ j from h)
    rw [Nat.mul_add] at this; omega
  · rw [h]
  · have := Nat.mul_le_mul_left d (show j + 1 ≤ i from h)
    rw [Nat.mul_add] at this; omega

theorem roundUp_spec (s : Nat) {n : Nat} (hn : 0 < n) :
    n ∣ (s + n - 1) / n * n ∧ s ≤ (s + n - 1) / n * n ∧ (s + n - 1) / n * n < s + n := by
  have h1 : (s + n - 1) / n * n ≤ s + n - 1 := Nat.div_mul_le_self ..
  have h2 := Nat.lt_div_mul_add (a := s + n - 1) hn
  exact ⟨Nat.dvd_mul_left .., by omega, by omega⟩

theorem placeAfter_spec (used : Nat) {ma : Nat} (h : 0 < ma) :
    ma ∣ placeAfter used ma ∧ used + 8 ≤ placeAfter used ma ∧ placeAfter used ma < used + 8 + ma :=
  roundUp_spec (used + 8) h

/-- rounding up in 32 bits is exact, modulo 2^32 -/
theorem nextMultiple_exact {s n : Nat} (hn : 0 < n) (hd : n ∣ 4294967296) (hs : s < 4294967296) :
    nextMultiple s n = u32 ((s + n - 1) / n * n) := by
  by_cases hw : s + n - 1 < 4294967296
  · unfold nextMultiple
    rw [u32_of_lt hw]
  · have hle : n ≤ 4294967296 := Nat.le_of_dvd (by decide) hd
    obtain ⟨h1, h2, h3⟩ := roundUp_spec s hn
    have h4 : (s + n - 1) / n * n = 4294967296 := multiple_unique (x := s) h1 hd h2 h3 (by omega) (by omega)
    have h5 : u32 (s + n - 1) < n := by unfold u32; omega
    rw [h4]
    unfold nextMultiple
    rw [Nat.div_eq_of_lt h5, Nat.zero_mul]
    rfl

theorem layoutPadding_exact {size ma : Nat} (hma : 8 ≤ ma) (hd : ma ∣ 4294967296) (hlt : ma < 4294967296)
    (hs : size < 4294967296) : size + layoutPadding size ma = placeAfter size ma := by
  obtain ⟨h1, h2, h3⟩ := roundUp_spec size (n := ma) (by omega)
  obtain ⟨p1, p2, p3⟩ := placeAfter_spec size (ma := ma) (by omega)
  have hle : ma ≤ 2147483648 := by
    obtain ⟨k, hk⟩ := hd
    have : 2 ≤ k := by
      rcases k with _ | _ | k
      · omega
      · omega
      · omega
    have := Nat.mul_le_mul_left ma this
    omega
  have hN : nextMultiple size ma = u32 ((size + ma - 1) / ma * ma) := nextMultiple_exact (by omega) hd hs
  have hNle : (size + ma - 1) / ma * ma ≤ 4294967296 := by
    apply Decidable.byContradiction
    intro hc
    have : (size + ma - 1) / ma * ma = 4294967296 := by
      obtain ⟨i, hi⟩ := h1
      obtain ⟨j, hj⟩ := hd
      rw [hi, hj] at hc
      have hij : j + 1 ≤ i := by
        apply Decidable.byContradiction
        intro h'
        exact hc (Nat.mul_le_mul_left ma (by omega))
      have := Nat.mul_le_mul_left ma hij
      rw [Nat.mul_add] at this
      omega
    omega
  have hp : u32 (nextMultiple size ma + 4294967296 - size) = (size + ma - 1) / ma * ma - size := by
    rw [hN]; unfold u32; omega
  unfold layoutPadding
  simp only [hp, sizeofPtr]
  split
  · rw [u32_of_lt (by omega)]
    apply multiple_unique (x := size + 8) (d := ma) _ p1 (by omega) (by omega) p2 p3
    have : size + ((size + ma - 1) / ma * ma - size + ma) = (size + ma - 1) / ma * ma + ma := by omega
    rw [this]
    exact Nat.dvd_add h1 (Nat.dvd_refl _)
  · apply multiple_unique (x := size + 8) (d := ma) _ p1 (by omega) (by omega) p2 p3
    have : size + ((size + ma - 1) / ma * ma - size) = (size + ma - 1) / ma * ma := by omega
    rw [this]
    exact h1

theorem exactEnd_le : ∀ (ms : List MixDecl) (used : Nat), used ≤ exactEnd ms used
  | [], _ => Nat.le_refl _
  | m :: ms, used => by
    unfold exactEnd
    split
    · exact exactEnd_le ms used
    · have := exactEnd_le ms (placeAfter used (max m.align 8) + m.size)
      have := (placeAfter_spec used (ma := max m.align 8) (by omega)).2.1
      omega

theorem exactEnd_bound : ∀ (ms : List MixDecl) (used : Nat), exactEnd ms used ≤ used + memoryNeed ms
  | [], _ => Nat.le_refl _
  | m :: ms, used => by
    unfold exactEnd memoryNeed
    cases h : m.external with
    | true => simpa using exactEnd_bound ms used
    | false =>
      simp only [Bool.false_eq_true, if_false]
      have := exactEnd_bound ms (placeAfter used (max m.align 8) + m.size)
      have := (placeAfter_spec used (ma := max m.align 8) (by omega)).2.2
      omega

theorem pow2_dvd_u32 {a : Nat} (h : Pow2 a) (hlt : a < 4294967296) : a ∣ 4294967296 :=
  pow2_dvd h ⟨32, rfl⟩ (by omega)

theorem layoutLoop_sound : ∀ (ms : List MixDecl) (size align : Nat), 8 ≤ align → Pow2 align →
    (∀ m ∈ ms, m.external = false → LegalAlign m.align) → exactEnd ms size < 4294967296 →
    LoopSound ms size align (layoutLoop ms size align) := by
  intro ms
  induction ms with
  | nil =>
    intro size align h8 hp _ _
    simp only [layoutLoop]
    exact ⟨rfl, by simp, by simp, by simp, hp, fun i h => by simp at h, fun i j hi => by simp at hi⟩
  | cons m ms ih =>
    intro size align h8 hp hl hb
    have hl' : ∀ m ∈ ms, m.external = false → LegalAlign m.align := fun x hx => hl x (by simp [hx])
    cases hext : m.external with
    | true =>
      simp only [layoutLoop, hext, if_true]
      simp only [exactEnd, hext, if_true] at hb
      have S := ih size align h8 hp hl' hb
      refine ⟨by simp [S.len], S.sizeLe, by simp only [memoryNeed, hext, if_true, Nat.zero_add]; exact S.bound, S.alignLe, S.pow, ?_, ?_⟩
      · intro i h
        cases i with
        | zero => exact ⟨0, rfl, fun _ => rfl, fun h' => by simp [hext] at h'⟩
        | succ i =>
          have := S.each i (by simpa using h)
          simpa using this
      · intro i j hi hj oi oj hij hei hej h1 h2
        cases i with
        | zero => simp [hext] at hei
        | succ i =>
          cases j with
          | zero => omega
          | succ j =>
            exact S.disj i j (by simpa using hi) (by simpa using hj) oi oj (by omega) (by simpa using hei)
              (by simpa using hej) (by simpa using h1) (by simpa using h2)
    | false =>
      simp only [layoutLoop, hext, layoutAlign_spec m align h8]
      simp only [exactEnd, hext] at hb
      have hma8 : 8 ≤ effAlign m := by unfold effAlign; omega
      have heff : effAlign m = max m.align 8 := rfl
      have hml := hl m (by simp) hext
      simp only [Bool.false_eq_true, if_false] at hb ⊢
      rw [← heff] at hb
      have hle := exactEnd_le ms (placeAfter size (effAlign m) + m.size)
      obtain ⟨p1, p2, p3⟩ := placeAfter_spec size (ma := effAlign m) (by omega)
      have hlt : effAlign m < 4294967296 := by
        have := Nat.le_of_dvd (by omega) p1
        omega
      have hpad := layoutPadding_exact hma8 (pow2_dvd_u32 (effAlign_pow2 hml) hlt) hlt (size := size) (by omega)
      rw [← hpad] at p1 p2 p3 hb hle
      have hoff : u32 (size + layoutPadding size (effAlign m)) = size + layoutPadding size (effAlign m) :=
        u32_of_lt (by omega)
      rw [hoff]
      generalize hO : size + layoutPadding size (effAlign m) = off at *
      have hsz : u32 (off + m.size) = off + m.size := u32_of_lt (by omega)
      rw [hsz]
      have S := ih (off + m.size) (max align m.align) (by omega) (max_pow2 hp hml) hl' (by omega)
      refine ⟨by simp [S.len], ?_, ?_, ?_, S.pow, ?_, ?_⟩
      · have := S.sizeLe; simp only; omega
      · have := S.bound
        simp only [memoryNeed, hext, Bool.false_eq_true, if_false]; omega
      · have := S.alignLe; simp only; omega
      · intro i h
        cases i with
        | zero =>
          refine ⟨off, rfl, fun h' => by simp [hext] at h', fun _ => ?_⟩
          have h1 := S.sizeLe
          have h2 := S.alignLe
          simp only [List.getElem_cons_zero]
          refine ⟨by omega, by omega, p1, by omega⟩
        | succ i =>
          obtain ⟨o, h1, h2, h3⟩ := S.each i (by simpa using h)
          refine ⟨o, by simpa using h1, by simpa using h2, ?_⟩
          intro he
          have := h3 (by simpa using he)
          simp only [List.getElem_cons_succ]
          refine ⟨by omega, this.2.1, this.2.2.1, this.2.2.2⟩
      · intro i j hi hj oi oj hij hei hej h1 h2
        cases j with
        | zero => omega
        | succ j =>
          cases i with
          | zero =>
            obtain ⟨o, g1, g2, g3⟩ := S.each j (by simpa using hj)
            have := g3 (by simpa using hej)
            simp at h1 h2
            rw [g1] at h2; simp at h2
            simp only [List.getElem_cons_zero]
            omega
          | succ i =>
            exact S.disj i j (by simpa using hi) (by simpa using hj) oi oj (by omega) (by simpa using hei)
              (by simpa using hej) (by simpa using h1) (by simpa using h2)

theorem layout_sound (ms : List MixDecl) (hl : ∀ m ∈ ms, m.external = false → LegalAlign m.align)
    (hb : exactSize ms < 4294967296) :
    LayoutSound ms (layout ms).offsets (layout ms).size (layout ms).align := by
  have hbase : u32 (ms.length * sizeofMixinData) = 16 * ms.length := by
    have := exactEnd_le ms (16 * ms.length)
    unfold exactSize at hb
    rw [sizeofMixinData, u32_of_lt (by omega)]; omega
  unfold exactSize at hb
  unfold layout
  rw [hbase]
  have S := layoutLoop_sound ms (16 * ms.length) 8 (by omega) ⟨3, rfl⟩ hl hb
  rw [sizeofPtr]
  generalize layoutLoop ms (16 * ms.length) 8 = L at *
  have hint : ∀ (i : Nat) (h : i < ms.length) (off : Nat), (ms[i]'h).external = false → L.offsets[i]? = some off →
      16 * ms.length + 8 ≤ off ∧ off + (ms[i]'h).size ≤ L.size ∧ effAlign (ms[i]'h) ∣ off ∧ (ms[i]'h).align ≤ L.align := by
    intro i h off he ho
    obtain ⟨o, h1, _, h3⟩ := S.each i h
    rw [h1] at ho; simp at ho; subst ho
    exact h3 he
  refine ⟨S.len, ⟨S.alignLe, S.pow⟩, S.sizeLe, ?_, ?_, ?_, ?_⟩
  · intro i h
    obtain ⟨o, h1, h2, h3⟩ := S.each i h
    constructor
    · intro he; rw [h1, h2 he]
    · intro hz
      cases he : (ms[i]'h).external with
      | true => rfl
      | false =>
        have := h3 he
        rw [h1] at hz; simp at hz; omega
  · intro i h off he ho
    obtain ⟨h1, h2, _, _⟩ := hint i h off he ho
    omega
  · intro i h off base he ho hbase
    obtain ⟨h1, h2, h3, h4⟩ := hint i h off he ho
    have hle := hl (ms[i]'h) (List.getElem_mem h) he
    have h8L : 8 ∣ L.align := pow2_dvd ⟨3, rfl⟩ S.pow S.alignLe
    have h8b : 8 ∣ base := Nat.dvd_trans h8L hbase
    have h8e : 8 ∣ effAlign (ms[i]'h) := pow2_dvd ⟨3, rfl⟩ (effAlign_pow2 hle) (by unfold effAlign; omega)
    have h8o : 8 ∣ off := Nat.dvd_trans h8e h3
    refine ⟨fun hne => ?_, ?_⟩
    · have hp2 : Pow2 (ms[i]'h).align := by
        rcases hle with h' | h'
        · exact absurd h' hne
        · exact h'
      apply Nat.dvd_add
      · exact Nat.dvd_trans (pow2_dvd hp2 S.pow h4) hbase
      · exact Nat.dvd_trans (pow2_dvd hp2 (effAlign_pow2 hle) (by unfold effAlign; omega)) h3
    · have : base + off - 8 = base + (off - 8) := by omega
      rw [this]
      exact Nat.dvd_add h8b (Nat.dvd_sub h8o (Nat.dvd_refl 8))
  · intro i j hi hj oi oj hij hei hej h1 h2
    rcases Nat.lt_or_gt_of_ne hij with h | h
    · left
      have := S.disj i j hi hj oi oj h hei hej h1 h2
      omega
    · right
      have := S.disj j i hj hi oj oi h hej hei h2 h1
      omega

end Dnmx
